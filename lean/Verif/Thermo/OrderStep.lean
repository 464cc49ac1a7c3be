import Verif.Thermo.OrderTables
import Verif.Thermo.OrderExist

/-!
The step length of `order()`, as spinel.c 2290-2343 (and rhombohedral.c, ortho-oxide.c with other site fractions) compute it: the
Newton step is shortened, one site fraction after the other, so that each stays between 0 and 1.
-/

namespace Verif.Thermo.Ordering.Step

open Finset

noncomputable section

/-- One test of the step length, spinel.c 2292-2296 (also 2298-2340). -/
def cap (x d lam : ℝ) : ℝ :=
  if d ≠ 0 ∧ x + lam * d < 0 then -x / d else if d ≠ 0 ∧ 1 < x + lam * d then (1 - x) / d else lam

/-- `lambda` after the tests of the listed sites; `x` are the site fractions after the bounds have been applied, `d` their
changes for the whole step. -/
def caps {n : ℕ} (x d : Fin n → ℝ) : List (Fin n) → ℝ → ℝ
  | [], lam => lam
  | i :: l, lam => caps x d l (cap (x i) (d i) lam)

/-- The new ordering state for the Newton step `d`, spinel.c 2287, 2343. -/
def advance {ns : ℕ} (lam : ℝ) (s d : Fin ns → ℝ) : Fin ns → ℝ :=
  if lam < 1 then fun i => s i + lam * d i else fun i => s i + d i

lemma cap_spec {x d lam : ℝ} (hx : 0 ≤ x ∧ x ≤ 1) (hl : 0 ≤ lam) :
    0 ≤ cap x d lam ∧ cap x d lam ≤ lam ∧ 0 ≤ x + cap x d lam * d ∧ x + cap x d lam * d ≤ 1 := by
  unfold cap
  split_ifs with h1 h2
  · have hd : d < 0 := by
      by_contra h
      have := mul_nonneg hl (not_lt.mp h)
      linarith [hx.1, h1.2]
    have e : -x / d * d = -x := div_mul_cancel₀ _ hd.ne
    refine ⟨div_nonneg_of_nonpos (by linarith [hx.1]) hd.le, ?_, by linarith, by linarith⟩
    rw [div_le_iff_of_neg hd]; linarith [h1.2]
  · have hd : 0 < d := by
      by_contra h
      have := mul_nonpos_of_nonneg_of_nonpos hl (not_lt.mp h)
      linarith [hx.2, h2.2]
    have e : (1 - x) / d * d = 1 - x := div_mul_cancel₀ _ hd.ne'
    refine ⟨div_nonneg (by linarith [hx.2]) hd.le, ?_, by linarith [hx.1], by linarith⟩
    rw [div_le_iff₀ hd]; linarith [h2.2]
  · by_cases hd : d = 0
    · subst hd; simp only [mul_zero, add_zero]; exact ⟨hl, le_refl _, hx⟩
    · exact ⟨hl, le_refl _, not_lt.mp fun h => h1 ⟨hd, h⟩, not_lt.mp fun h => h2 ⟨hd, h⟩⟩

lemma shorter {x d l l' : ℝ} (hx : 0 ≤ x ∧ x ≤ 1) (h : 0 ≤ x + l * d ∧ x + l * d ≤ 1) (h0 : 0 ≤ l') (h1 : l' ≤ l) :
    0 ≤ x + l' * d ∧ x + l' * d ≤ 1 := by
  rcases le_total 0 d with hd | hd
  · have a := mul_le_mul_of_nonneg_right h1 hd
    have b := mul_nonneg h0 hd
    constructor <;> linarith [hx.1, h.2]
  · have a := mul_le_mul_of_nonpos_right h1 hd
    have b := mul_nonpos_of_nonneg_of_nonpos h0 hd
    constructor <;> linarith [hx.2, h.1]

lemma caps_spec {n : ℕ} {x d : Fin n → ℝ} (l : List (Fin n)) (hx : ∀ i ∈ l, 0 ≤ x i ∧ x i ≤ 1) {lam : ℝ} (hl : 0 ≤ lam) :
    0 ≤ caps x d l lam ∧ caps x d l lam ≤ lam ∧
      ∀ i ∈ l, 0 ≤ x i + caps x d l lam * d i ∧ x i + caps x d l lam * d i ≤ 1 := by
  induction l generalizing lam with
  | nil => exact ⟨hl, le_refl _, fun i h => absurd h (by simp)⟩
  | cons j l ih =>
    have hj := cap_spec (d := d j) (hx j (by simp)) hl
    have h := ih (fun i hi => hx i (List.mem_cons_of_mem _ hi)) hj.1
    refine ⟨h.1, h.2.1.trans hj.2.1, fun i hi => ?_⟩
    rcases List.mem_cons.mp hi with rfl | hi
    · exact shorter (hx i (by simp)) hj.2.2 h.1 h.2.1
    · exact h.2.2 i hi

lemma advance_eq {ns : ℕ} {lam : ℝ} (h : lam ≤ 1) (s d : Fin ns → ℝ) : advance lam s d = fun i => s i + lam * d i := by
  unfold advance
  split_ifs with h1
  · rfl
  · rw [le_antisymm h (not_lt.mp h1)]; simp

lemma frac_add {ns : ℕ} (a : ℝ) (b s d : Fin ns → ℝ) (l : ℝ) :
    frac a b (fun i => s i + l * d i) = frac a b s + l * ∑ k, b k * d k := by
  simp only [frac, mul_add, Finset.sum_add_distrib, Finset.mul_sum]
  rw [add_assoc]
  congr 2
  exact Finset.sum_congr rfl fun k _ => by ring

lemma dblEps_le : dblEps ≤ 1 / 2 := by
  unfold dblEps
  rw [zpow_neg, one_div]
  refine inv_anti₀ (by norm_num) ?_
  norm_num

lemma keep_mem (x : ℝ) : 0 ≤ keep 0 1 (1 - dblEps) x ∧ keep 0 1 (1 - dblEps) x ≤ 1 := by
  have h1 := dblEps_pos
  have h2 := dblEps_le
  unfold keep
  simp only
  split_ifs <;> constructor <;> linarith

lemma keep_near {x e : ℝ} (he : 0 ≤ e) (h : -e ≤ x ∧ x ≤ 1 + e) :
    -(e + dblEps) ≤ x - keep 0 1 (1 - dblEps) x ∧ x - keep 0 1 (1 - dblEps) x ≤ e + dblEps := by
  have h1 := dblEps_pos
  have h2 := dblEps_le
  unfold keep
  simp only
  split_ifs <;> constructor <;> linarith [h.1, h.2]

/-- One iteration keeps the tested site fractions in `[0, 1]`, up to one more unit of rounding, whatever the step. -/
theorem advance_feasible {n ns : ℕ} {a : Fin n → ℝ} {b : Fin n → Fin ns → ℝ} {x dir : Fin n → ℝ} {l : List (Fin n)}
    {s d : Fin ns → ℝ} (hx : ∀ i ∈ l, x i = keep 0 1 (1 - dblEps) (frac (a i) (b i) s))
    (hd : ∀ i ∈ l, dir i = ∑ k, b i k * d k) {e : ℝ} (he : 0 ≤ e)
    (h : ∀ i ∈ l, -e ≤ frac (a i) (b i) s ∧ frac (a i) (b i) s ≤ 1 + e) (i : Fin n) (hi : i ∈ l) :
    -(e + dblEps) ≤ frac (a i) (b i) (advance (caps x dir l 1) s d) ∧
      frac (a i) (b i) (advance (caps x dir l 1) s d) ≤ 1 + (e + dblEps) := by
  have hx' : ∀ i ∈ l, 0 ≤ x i ∧ x i ≤ 1 := fun i hi => by rw [hx i hi]; exact keep_mem _
  obtain ⟨-, l1, hl⟩ := caps_spec (d := dir) l hx' zero_le_one
  rw [advance_eq l1, frac_add, ← hd i hi]
  have k1 := keep_near he (h i hi)
  have k2 := hl i hi
  rw [hx i hi] at k2
  constructor <;> linarith [k1.1, k1.2, k2.1, k2.2]

end

end Verif.Thermo.Ordering.Step
