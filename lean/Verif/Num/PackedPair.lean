import Verif.Num.PackedZero

/-!
Three ordering parameters of which one is missing, in the solver of /repo/sources/melts_linalg.c.
-/

namespace Verif.Num.PackedLU

open Finset
open scoped Matrix

noncomputable section

lemma Factors.congr {n : ℕ} {A A' C : ℕ → ℕ → ℝ} {p : ℕ → ℕ} (h : ∀ i < n, ∀ j < n, A i j = A' i j) (hF : Factors n A C p) :
    Factors n A' C p where
  lt := hF.lt
  inj := hF.inj
  prod i hi j hj := by rw [← h _ (hF.lt i hi) j hj]; exact hF.prod i hi j hj
  upper hu := by
    obtain ⟨h1, h2⟩ := hF.upper fun i hi j hj => by rw [h i hi j (by omega)]; exact hu i hi j hj
    exact ⟨fun i hi j hj => by rw [h1 i hi j hj, h i hi j hj], h2⟩

/-- The substitutions for two unknowns. -/
lemma triangular_two (LU : ℕ → ℕ → ℝ) (y : ℕ → ℝ) :
    triangular 2 LU y 0 = (y 0 - LU 0 1 * ((y 1 - LU 1 0 * y 0) / LU 1 1)) / LU 0 0 ∧
    triangular 2 LU y 1 = (y 1 - LU 1 0 * y 0) / LU 1 1 := by
  simp [triangular, backward_one, backward_zero, forward_zero, forward_one]

/-- The permutation of two rows. -/
lemma Factors.two {A C : ℕ → ℕ → ℝ} {q : ℕ → ℕ} (hF : Factors 2 A C q) : (q 0 = 0 ∧ q 1 = 1) ∨ (q 0 = 1 ∧ q 1 = 0) := by
  have h0 := hF.lt 0 (by omega)
  have h1 := hF.lt 1 (by omega)
  have := hF.inj 0 (by omega) 1 (by omega)
  have : q 0 ≠ q 1 := fun h => absurd (this h) (by omega)
  omega

/-- Exchanging two rows twice restores the permutation. -/
lemma combine_two {p q : ℕ → ℕ} (h : (q 0 = 0 ∧ q 1 = 1) ∨ (q 0 = 1 ∧ q 1 = 0)) : combine p q 2 = p := by
  funext a
  rcases h with ⟨h0, h1⟩ | ⟨h0, h1⟩ <;> simp [combine, h0, h1, Equiv.swap_comm 1 0]

/-- One missing parameter, packed to the end with the permutation `p`: the result, whether rows were exchanged or not. -/
lemma pair_core (lu : ℕ → (ℕ → ℕ → ℝ) → (ℕ → ℕ → ℝ) × (ℕ → ℕ)) (A : ℕ → ℕ → ℝ) (b : ℕ → ℝ) (p : ℕ → ℕ) (v z : ℕ)
    (hvz : (v = 1 ∧ z = 2) ∨ (v = 2 ∧ z = 1)) (hp0 : p 0 = 0) (hp1 : p 1 = v) (hp2 : p 2 = z)
    (hout : outer 3 3 0 ⟨A, id, (3 : ℕ)⟩ = ⟨fun i => A (p i), p, 2⟩) (hz : ∀ j < 3, A z j = 0)
    (hF : ∀ B : ℕ → ℕ → ℝ, (∀ i < 2, ∀ j < 2, B i j = A (p i) (p j)) → Factors 2 B (lu 2 B).1 (lu 2 B).2)
    (hdet : A 0 0 * A v v - A 0 v * A v 0 ≠ 0) :
    ∃ q : ℕ → ℕ, (q = (lu 2 fun i j => A (p i) (p j)).2) ∧ solve lu 3 A b z = 0 ∧
      ∀ i < 2, A (p (q i)) 0 * solve lu 3 A b 0 + A (p (q i)) v * solve lu 3 A b v = b (p i) := by
  set B : ℕ → ℕ → ℝ := fun i j => A (p i) (p j) with hB
  have hF := hF B fun _ _ _ _ => rfl
  set C := (lu 2 B).1
  set q := (lu 2 B).2
  refine ⟨q, rfl, ?_⟩
  have hd : decomp lu 3 A = (fun i j => if i < 2 ∧ j < 2 then C i j else B i j, p) := by
    simp only [decomp, hout]
    rw [if_neg (by omega), if_pos (by omega)]
    have : (2 : ℤ).toNat = 2 := rfl
    rw [this]
    exact Prod.ext rfl (combine_two hF.two)
  have hdiag : ∀ i < 2, C i i ≠ 0 := by
    refine diag_ne (A := !![A 0 0, A 0 v; A v 0, A v v]) (hF.congr fun i hi j hj => ?_) ?_
    · rw [arr_lt _ hi hj]
      interval_cases i <;> interval_cases j <;> simp [hB, hp0, hp1]
    · rw [Matrix.det_fin_two_of]; exact hdet
  have hrows : rowsOf 3 (fun i j => if i < 2 ∧ j < 2 then C i j else B i j) = 2 := by
    have : (range 3).filter (fun i => isnull 3 (fun j => if i < 2 ∧ j < 2 then C i j else B i j) = false) = {0, 1} := by
      ext i
      simp only [mem_filter, mem_range, mem_insert, mem_singleton]
      constructor
      · rintro ⟨h, hh⟩
        by_contra hne
        obtain rfl : i = 2 := by omega
        have : ∀ j < 3, (if 2 < 2 ∧ j < 2 then C 2 j else B 2 j) = 0 := by
          intro j hj
          rw [if_neg (by omega), hB]
          simp only [hp2]
          refine hz _ ?_
          interval_cases j <;> omega
        rw [(isnull_iff 3 _).mpr this] at hh; cases hh
      · intro h
        refine ⟨by omega, (isnull_false _ _).mpr ⟨i, by omega, ?_⟩⟩
        rw [if_pos (by omega)]
        exact hdiag i (by omega)
    rw [rowsOf, this]; rfl
  set LU : ℕ → ℕ → ℝ := fun i j => if i < 2 ∧ j < 2 then C i j else B i j
  set y : ℕ → ℝ := fun j => b (p j)
  have hsol : ∀ a, solve lu 3 A b a = unpermute 3 p (fun i => if i < 2 then triangular 2 LU y i else 0) a := by
    intro a
    simp only [solve, hd, svx, hrows]
    rw [if_neg (by omega), if_pos (by omega)]
  have ht0 : triangular 2 LU y 0 = triangular 2 C y 0 := by
    rw [(triangular_two LU y).1, (triangular_two C y).1]; rfl
  have ht1 : triangular 2 LU y 1 = triangular 2 C y 1 := by
    rw [(triangular_two LU y).2, (triangular_two C y).2]; rfl
  have hx : solve lu 3 A b z = 0 ∧ solve lu 3 A b 0 = triangular 2 C y 0 ∧ solve lu 3 A b v = triangular 2 C y 1 := by
    rw [hsol, hsol, hsol]
    simp only [unpermute, sum_range_succ, range_zero, sum_empty, hp0, hp1, hp2, ← ht0, ← ht1]
    rcases hvz with ⟨rfl, rfl⟩ | ⟨rfl, rfl⟩ <;> simp
  refine ⟨hx.1, fun i hi => ?_⟩
  rw [hx.2.1, hx.2.2]
  -- the right side that the factors would need
  have hy : ∀ i < 2, y i = (fun j => y (q j)) (q i) := by
    intro i hi
    rcases hF.two with ⟨h0, h1⟩ | ⟨h0, h1⟩ <;> interval_cases i <;> simp [h0, h1]
  have hyq : triangular 2 C (fun j => (fun j => y (q j)) (q j)) 0 = triangular 2 C y 0 ∧
      triangular 2 C (fun j => (fun j => y (q j)) (q j)) 1 = triangular 2 C y 1 := by
    rw [(triangular_two C _).1, (triangular_two C _).2, (triangular_two C y).1, (triangular_two C y).2, ← hy 0 (by omega),
      ← hy 1 (by omega)]
    exact ⟨rfl, rfl⟩
  have := triangular_spec hF hdiag (fun j => y (q j)) hi
  rw [sum_range_succ, sum_range_succ, range_zero, sum_empty, zero_add, hyq.1, hyq.2, show y (q (q i)) = y i from (hy i hi).symm] at this
  simp only [hB, hp0, hp1] at this
  exact this

/-- The second or third of three parameters is missing: it is packed to the end. -/
lemma pair_outer (A : Matrix (Fin 3) (Fin 3) ℝ) (v z : Fin 3) (hvz : (v = 1 ∧ z = 2) ∨ (v = 2 ∧ z = 1)) (hz : ∀ j, A z j = 0)
    (hdet : A 0 0 * A v v - A 0 v * A v 0 ≠ 0) :
    outer 3 3 0 ⟨arr A, id, (3 : ℕ)⟩ = ⟨fun i => arr A (Equiv.swap 1 (v : ℕ) i), Equiv.swap 1 (v : ℕ), 2⟩ := by
  have h0 : isnull 3 (arr A 0) = false := by
    rw [isnull_false]
    by_contra h
    push Not at h
    have e0 : A 0 0 = 0 := h 0 (by omega)
    have ev : A 0 v = 0 := by have := h v v.2; rw [arr_lt A (by omega) v.2] at this; exact this
    rw [e0, ev] at hdet; simp at hdet
  have hv : isnull 3 (arr A v) = false := by
    rw [isnull_false]
    by_contra h
    push Not at h
    have e0 : A v 0 = 0 := by have := h 0 (by omega); rw [arr_lt A v.2 (by omega)] at this; exact this
    have ev : A v v = 0 := by have := h v v.2; rw [arr_lt A v.2 v.2] at this; exact this
    rw [e0, ev] at hdet; simp at hdet
  have hzn : isnull 3 (arr A z) = true := by
    rw [isnull_iff]; intro j hj; rw [arr_lt A z.2 hj]; exact hz _
  rcases hvz with ⟨rfl, rfl⟩ | ⟨rfl, rfl⟩
  · have hv : isnull 3 (arr A 1) = false := hv
    have hzn : isnull 3 (arr A 2) = true := hzn
    simp [outer, inner, h0, hv, hzn]
  · have hv : isnull 3 (arr A 2) = false := hv
    have hzn : isnull 3 (arr A 1) = true := hzn
    simp [outer, inner, h0, hv, hzn]

/-- C77. Of three ordering parameters the second or third is missing, and the elimination of the other two needs no exchange of
rows: the two equations are solved, and the missing parameter is zero. -/
theorem C77_pair (lu : ℕ → (ℕ → ℕ → ℝ) → (ℕ → ℕ → ℝ) × (ℕ → ℕ)) (A : Matrix (Fin 3) (Fin 3) ℝ) (b : Fin 3 → ℝ) (v z : Fin 3)
    (hvz : (v = 1 ∧ z = 2) ∨ (v = 2 ∧ z = 1)) (hz : ∀ j, A z j = 0 ∧ A j z = 0) (hdet : A 0 0 * A v v - A 0 v * A v 0 ≠ 0)
    (hF : ∀ B : ℕ → ℕ → ℝ, (∀ i j : Fin 2, B i j = A (![0, v] i) (![0, v] j)) →
      Factors 2 B (lu 2 B).1 (lu 2 B).2 ∧ (lu 2 B).2 0 = 0) :
    solve lu 3 (arr A) (vec b) z = 0 ∧ ∀ r, r ≠ z → ∑ c : Fin 3, A r c * solve lu 3 (arr A) (vec b) c = b r := by
  have hsw : (Equiv.swap 1 (v : ℕ)) 0 = 0 ∧ (Equiv.swap 1 (v : ℕ)) 1 = v ∧ (Equiv.swap 1 (v : ℕ)) 2 = z := by
    rcases hvz with ⟨rfl, rfl⟩ | ⟨rfl, rfl⟩ <;> decide
  have hvzN : ((v : ℕ) = 1 ∧ (z : ℕ) = 2) ∨ ((v : ℕ) = 2 ∧ (z : ℕ) = 1) := by
    rcases hvz with ⟨rfl, rfl⟩ | ⟨rfl, rfl⟩ <;> simp
  have e : ∀ i j : Fin 3, arr A i j = A i j := fun i j => arr_lt A i.2 j.2
  have e0 : ∀ i : Fin 3, arr A i 0 = A i 0 := fun i => arr_lt A i.2 (by omega)
  have hB : ∀ B : ℕ → ℕ → ℝ, (∀ i < 2, ∀ j < 2, B i j = arr A (Equiv.swap 1 (v : ℕ) i) (Equiv.swap 1 (v : ℕ) j)) →
      ∀ i j : Fin 2, B i j = A (![0, v] i) (![0, v] j) := by
    intro B hB i j
    rw [hB i i.2 j j.2]
    fin_cases i <;> fin_cases j <;> simp [hsw.1, hsw.2.1]
    · exact e 0 0
    · exact e 0 v
    · exact e v 0
    · exact e v v
  obtain ⟨q, hq, h1, h2⟩ := pair_core lu (arr A) (vec b) (Equiv.swap 1 (v : ℕ)) v z hvzN hsw.1 hsw.2.1 hsw.2.2
    (pair_outer A v z hvz (fun j => (hz j).1) hdet)
    (fun j hj => by rw [arr_lt A z.2 hj]; exact (hz _).1) (fun B h => (hF B (hB B h)).1)
    (by rw [e v v, e0 v, show arr A 0 (v : ℕ) = A 0 v from e 0 v, show arr A 0 0 = A 0 0 from e 0 0]; exact hdet)
  have hq0 : q 0 = 0 := by rw [hq]; exact (hF _ (hB _ fun _ _ _ _ => rfl)).2
  have hq1 : q 1 = 1 := by
    have := (hF (fun i j => arr A (Equiv.swap 1 (v : ℕ) i) (Equiv.swap 1 (v : ℕ) j)) (hB _ fun _ _ _ _ => rfl)).1.two
    rw [← hq, hq0] at this; omega
  have k0 := h2 0 (by omega)
  have k1 := h2 1 (by omega)
  rw [hq0, hsw.1] at k0
  rw [hq1, hsw.2.1] at k1
  refine ⟨h1, fun r hr => ?_⟩
  have hc : ∑ c : Fin 3, A r c * solve lu 3 (arr A) (vec b) c =
      A r 0 * solve lu 3 (arr A) (vec b) 0 + A r v * solve lu 3 (arr A) (vec b) v := by
    rw [Fin.sum_univ_three]
    rcases hvz with ⟨rfl, rfl⟩ | ⟨rfl, rfl⟩
    · rw [(hz r).2]; simp
    · rw [(hz r).2]; simp
  rw [hc]
  have hr' : r = 0 ∨ r = v := by
    rcases hvz with ⟨rfl, rfl⟩ | ⟨rfl, rfl⟩ <;> revert hr <;> fin_cases r <;> decide
  rcases hr' with rfl | rfl
  · rw [show arr A 0 0 = A 0 0 from e 0 0, show arr A 0 (v : ℕ) = A 0 v from e 0 v] at k0
    rw [k0]; rfl
  · rw [e0 r, e r r] at k1
    rw [k1]; simp [vec]

/-- C77. When the elimination does exchange the two rows, the exchange is lost: the returned values solve the two equations with
the right sides interchanged. -/
theorem C77_pair_exchanged (lu : ℕ → (ℕ → ℕ → ℝ) → (ℕ → ℕ → ℝ) × (ℕ → ℕ)) (A : Matrix (Fin 3) (Fin 3) ℝ) (b : Fin 3 → ℝ)
    (v z : Fin 3) (hvz : (v = 1 ∧ z = 2) ∨ (v = 2 ∧ z = 1)) (hz : ∀ j, A z j = 0 ∧ A j z = 0)
    (hdet : A 0 0 * A v v - A 0 v * A v 0 ≠ 0)
    (hF : ∀ B : ℕ → ℕ → ℝ, (∀ i j : Fin 2, B i j = A (![0, v] i) (![0, v] j)) →
      Factors 2 B (lu 2 B).1 (lu 2 B).2 ∧ (lu 2 B).2 0 = 1) :
    solve lu 3 (arr A) (vec b) z = 0 ∧ ∑ c : Fin 3, A 0 c * solve lu 3 (arr A) (vec b) c = b v ∧
      ∑ c : Fin 3, A v c * solve lu 3 (arr A) (vec b) c = b 0 := by
  have hsw : (Equiv.swap 1 (v : ℕ)) 0 = 0 ∧ (Equiv.swap 1 (v : ℕ)) 1 = v ∧ (Equiv.swap 1 (v : ℕ)) 2 = z := by
    rcases hvz with ⟨rfl, rfl⟩ | ⟨rfl, rfl⟩ <;> decide
  have hvzN : ((v : ℕ) = 1 ∧ (z : ℕ) = 2) ∨ ((v : ℕ) = 2 ∧ (z : ℕ) = 1) := by
    rcases hvz with ⟨rfl, rfl⟩ | ⟨rfl, rfl⟩ <;> simp
  have e : ∀ i j : Fin 3, arr A i j = A i j := fun i j => arr_lt A i.2 j.2
  have e0 : ∀ i : Fin 3, arr A i 0 = A i 0 := fun i => arr_lt A i.2 (by omega)
  have hB : ∀ B : ℕ → ℕ → ℝ, (∀ i < 2, ∀ j < 2, B i j = arr A (Equiv.swap 1 (v : ℕ) i) (Equiv.swap 1 (v : ℕ) j)) →
      ∀ i j : Fin 2, B i j = A (![0, v] i) (![0, v] j) := by
    intro B hB i j
    rw [hB i i.2 j j.2]
    fin_cases i <;> fin_cases j <;> simp [hsw.1, hsw.2.1]
    · exact e 0 0
    · exact e 0 v
    · exact e v 0
    · exact e v v
  obtain ⟨q, hq, h1, h2⟩ := pair_core lu (arr A) (vec b) (Equiv.swap 1 (v : ℕ)) v z hvzN hsw.1 hsw.2.1 hsw.2.2
    (pair_outer A v z hvz (fun j => (hz j).1) hdet)
    (fun j hj => by rw [arr_lt A z.2 hj]; exact (hz _).1) (fun B h => (hF B (hB B h)).1)
    (by rw [e v v, e0 v, show arr A 0 (v : ℕ) = A 0 v from e 0 v, show arr A 0 0 = A 0 0 from e 0 0]; exact hdet)
  have hq0 : q 0 = 1 := by rw [hq]; exact (hF _ (hB _ fun _ _ _ _ => rfl)).2
  have hq1 : q 1 = 0 := by
    have := (hF (fun i j => arr A (Equiv.swap 1 (v : ℕ) i) (Equiv.swap 1 (v : ℕ) j)) (hB _ fun _ _ _ _ => rfl)).1.two
    rw [← hq, hq0] at this; omega
  have k0 := h2 0 (by omega)
  have k1 := h2 1 (by omega)
  rw [hq0, hsw.2.1, hsw.1, e0 v, e v v] at k0
  rw [hq1, hsw.1, hsw.2.1, show arr A 0 0 = A 0 0 from e 0 0, show arr A 0 (v : ℕ) = A 0 v from e 0 v] at k1
  have hc : ∀ r, ∑ c : Fin 3, A r c * solve lu 3 (arr A) (vec b) c =
      A r 0 * solve lu 3 (arr A) (vec b) 0 + A r v * solve lu 3 (arr A) (vec b) v := by
    intro r
    rw [Fin.sum_univ_three]
    rcases hvz with ⟨rfl, rfl⟩ | ⟨rfl, rfl⟩
    · rw [(hz r).2]; simp
    · rw [(hz r).2]; simp
  refine ⟨h1, ?_, ?_⟩
  · rw [hc, k1]; simp [vec]
  · rw [hc, k0]; rfl

/-- C77. Of three ordering parameters the first is missing: the other two are not packed together, and a zero is among the
numbers the solver divides by. -/
theorem C77_first_missing (lu : ℕ → (ℕ → ℕ → ℝ) → (ℕ → ℕ → ℝ) × (ℕ → ℕ)) (A : Matrix (Fin 3) (Fin 3) ℝ)
    (hz : ∀ j, A 0 j = 0 ∧ A j 0 = 0) (h1 : ∃ j, A 1 j ≠ 0) (h2 : ∃ j, A 2 j ≠ 0)
    (hF : ∀ B : ℕ → ℕ → ℝ, B 0 0 = A 1 1 → B 0 1 = 0 → B 1 0 = 0 → B 1 1 = 0 → Factors 2 B (lu 2 B).1 (lu 2 B).2) :
    rowsOf 3 (decomp lu 3 (arr A)).1 = 2 ∧ (decomp lu 3 (arr A)).1 1 1 = 0 := by
  have e : ∀ i j : Fin 3, arr A i j = A i j := fun i j => arr_lt A i.2 j.2
  have n0 : isnull 3 (arr A 0) = true := by
    rw [isnull_iff]; intro j hj; rw [arr_lt A (by omega) hj]; exact (hz _).1
  have n1 : isnull 3 (arr A 1) = false := by
    obtain ⟨j, hj⟩ := h1
    exact (isnull_false _ _).mpr ⟨j, j.2, by rw [show arr A 1 (j : ℕ) = A 1 j from e 1 j]; exact hj⟩
  have n2 : isnull 3 (arr A 2) = false := by
    obtain ⟨j, hj⟩ := h2
    exact (isnull_false _ _).mpr ⟨j, j.2, by rw [show arr A 2 (j : ℕ) = A 2 j from e 2 j]; exact hj⟩
  have s2 : Equiv.swap 0 1 2 = 2 := by decide
  have hout : outer 3 3 0 ⟨arr A, id, (3 : ℕ)⟩ = ⟨fun i => arr A (Equiv.swap 0 1 i), fun i => Equiv.swap 0 1 i, 2⟩ := by
    simp [outer, inner, n0, n1, n2, s2]
  set B : ℕ → ℕ → ℝ := fun i j => arr A (Equiv.swap 0 1 i) (Equiv.swap 0 1 j) with hB
  have z0 : ∀ j : Fin 3, arr A 0 j = 0 := fun j => by rw [show arr A 0 (j : ℕ) = A 0 j from e 0 j]; exact (hz j).1
  have b00 : B 0 0 = A 1 1 := by simp only [hB, Equiv.swap_apply_left]; exact e 1 1
  have b01 : B 0 1 = 0 := by
    simp only [hB, Equiv.swap_apply_left, Equiv.swap_apply_right]; rw [show arr A 1 0 = A 1 0 from e 1 0]; exact (hz 1).2
  have b10 : B 1 0 = 0 := by simp only [hB, Equiv.swap_apply_left, Equiv.swap_apply_right]; exact z0 1
  have b11 : B 1 1 = 0 := by simp only [hB, Equiv.swap_apply_right]; exact z0 0
  have b12 : B 1 2 = 0 := by simp only [hB, Equiv.swap_apply_right, s2]; exact z0 2
  have hC : ∀ i < 2, ∀ j < 2, (lu 2 B).1 i j = B i j := by
    refine ((hF B b00 b01 b10 b11).upper ?_).1
    intro i hi j hj
    obtain ⟨rfl, rfl⟩ : i = 1 ∧ j = 0 := by omega
    exact b10
  have hd : (decomp lu 3 (arr A)).1 = fun i j => if i < 2 ∧ j < 2 then (lu 2 B).1 i j else B i j := by
    simp only [decomp, hout]
    rw [if_neg (by omega), if_pos (by omega)]
    rfl
  have hLU : ∀ i j, (decomp lu 3 (arr A)).1 i j = B i j := by
    intro i j
    rw [hd]
    simp only
    split_ifs with h
    · exact hC i h.1 j h.2
    · rfl
  have hLU' : (decomp lu 3 (arr A)).1 = B := by funext i j; exact hLU i j
  rw [hLU']
  refine ⟨?_, b11⟩
  have : (range 3).filter (fun i => isnull 3 (B i) = false) = {0, 2} := by
    ext i
    simp only [mem_filter, mem_range, mem_insert, mem_singleton]
    have hp : ∀ r, isnull 3 (arr A (Equiv.swap 0 1 r)) = false → isnull 3 (B r) = false := by
      intro r h
      obtain ⟨j, hj, hne⟩ := (isnull_false _ _).mp h
      refine (isnull_false _ _).mpr ⟨Equiv.swap 0 1 j, ?_, by simpa [hB] using hne⟩
      interval_cases j <;> simp [s2]
    constructor
    · rintro ⟨h, hh⟩
      by_contra hne
      obtain rfl : i = 1 := by omega
      have : ∀ j < 3, B 1 j = 0 := by
        intro j hj; interval_cases j <;> assumption
      rw [(isnull_iff 3 _).mpr this] at hh; cases hh
    · rintro (rfl | rfl)
      · exact ⟨by omega, hp 0 (by simpa using n1)⟩
      · exact ⟨by omega, hp 2 (by rw [s2]; exact n2)⟩
  rw [rowsOf, this]; rfl

/-- The factors of `[[1, 2], [2, 5]]` with the larger entry of the first column as pivot: rows exchanged. -/
lemma demo_factors (B : ℕ → ℕ → ℝ) (h00 : B 0 0 = 1) (h01 : B 0 1 = 2) (h10 : B 1 0 = 2) (h11 : B 1 1 = 5) :
    Factors 2 B (fun i j => if i = 0 then (if j = 0 then 2 else 5) else (if j = 0 then 1 / 2 else -1 / 2))
      (fun i => 1 - i) where
  lt i hi := by omega
  inj i hi j hj h := by omega
  prod i hi j hj := by
    interval_cases i <;> interval_cases j <;> simp [sum_range_succ, h00, h01, h10, h11] <;> norm_num
  upper h := by have := h 1 (by omega) 0 (by omega); rw [h10] at this; norm_num at this

/-- Three parameters, the third missing, with the positive definite block `[[1, 2], [2, 5]]`: the equations `x + 2 y = 0`,
`2 x + 5 y = 1` have the solution `(-2, 1, 0)`, but what is returned satisfies `x + 2 y = 1`, `2 x + 5 y = 0`. -/
example : ∃ lu : ℕ → (ℕ → ℕ → ℝ) → (ℕ → ℕ → ℝ) × (ℕ → ℕ),
    (∀ B : ℕ → ℕ → ℝ, (∀ i j : Fin 2, B i j = (!![1, 2, 0; 2, 5, 0; 0, 0, 0] : Matrix (Fin 3) (Fin 3) ℝ) (![0, 1] i) (![0, 1] j)) →
      Factors 2 B (lu 2 B).1 (lu 2 B).2 ∧ (lu 2 B).2 0 = 1) ∧
    solve lu 3 (arr !![1, 2, 0; 2, 5, 0; 0, 0, 0]) (vec ![0, 1, 0]) 0 = 5 ∧
    solve lu 3 (arr !![1, 2, 0; 2, 5, 0; 0, 0, 0]) (vec ![0, 1, 0]) 1 = -2 := by
  set lu : ℕ → (ℕ → ℕ → ℝ) → (ℕ → ℕ → ℝ) × (ℕ → ℕ) := fun _ _ =>
    (fun i j => if i = 0 then (if j = 0 then 2 else 5) else (if j = 0 then 1 / 2 else -1 / 2), fun i => 1 - i) with hlu
  have hF : ∀ B : ℕ → ℕ → ℝ,
      (∀ i j : Fin 2, B i j = (!![1, 2, 0; 2, 5, 0; 0, 0, 0] : Matrix (Fin 3) (Fin 3) ℝ) (![0, 1] i) (![0, 1] j)) →
      Factors 2 B (lu 2 B).1 (lu 2 B).2 ∧ (lu 2 B).2 0 = 1 := by
    intro B hB
    exact ⟨demo_factors B (by simpa using hB 0 0) (by simpa using hB 0 1) (by simpa using hB 1 0) (by simpa using hB 1 1), rfl⟩
  refine ⟨lu, hF, ?_⟩
  obtain ⟨h2, h0, h1⟩ := C77_pair_exchanged lu !![1, 2, 0; 2, 5, 0; 0, 0, 0] ![0, 1, 0] 1 2 (by simp)
    (by intro j; fin_cases j <;> simp) (by norm_num) hF
  simp [Fin.sum_univ_three] at h0 h1
  constructor <;> linarith

/-- The hypotheses of `C77_pair` are met by the block `[[2, 1], [1, 2]]` with the second parameter missing. -/
example : ∃ lu : ℕ → (ℕ → ℕ → ℝ) → (ℕ → ℕ → ℝ) × (ℕ → ℕ),
    (∀ B : ℕ → ℕ → ℝ, (∀ i j : Fin 2, B i j = (!![2, 0, 1; 0, 0, 0; 1, 0, 2] : Matrix (Fin 3) (Fin 3) ℝ) (![0, 2] i) (![0, 2] j)) →
      Factors 2 B (lu 2 B).1 (lu 2 B).2 ∧ (lu 2 B).2 0 = 0) ∧
    solve lu 3 (arr !![2, 0, 1; 0, 0, 0; 1, 0, 2]) (vec ![3, 7, 0]) 0 = 2 ∧
    solve lu 3 (arr !![2, 0, 1; 0, 0, 0; 1, 0, 2]) (vec ![3, 7, 0]) 2 = -1 := by
  set lu : ℕ → (ℕ → ℕ → ℝ) → (ℕ → ℕ → ℝ) × (ℕ → ℕ) := fun _ _ =>
    (fun i j => if i = 0 then (if j = 0 then 2 else 1) else (if j = 0 then 1 / 2 else 3 / 2), id) with hlu
  have hF : ∀ B : ℕ → ℕ → ℝ,
      (∀ i j : Fin 2, B i j = (!![2, 0, 1; 0, 0, 0; 1, 0, 2] : Matrix (Fin 3) (Fin 3) ℝ) (![0, 2] i) (![0, 2] j)) →
      Factors 2 B (lu 2 B).1 (lu 2 B).2 ∧ (lu 2 B).2 0 = 0 := by
    intro B hB
    have h00 : B 0 0 = 2 := by simpa using hB 0 0
    have h01 : B 0 1 = 1 := by simpa using hB 0 1
    have h10 : B 1 0 = 1 := by simpa using hB 1 0
    have h11 : B 1 1 = 2 := by simpa using hB 1 1
    refine ⟨⟨fun i hi => hi, fun i _ j _ h => h, ?_, ?_⟩, rfl⟩
    · intro i hi j hj
      interval_cases i <;> interval_cases j <;> simp [sum_range_succ, h00, h01, h10, h11, hlu] <;> norm_num
    · intro h; have := h 1 (by omega) 0 (by omega); rw [h10] at this; norm_num at this
  refine ⟨lu, hF, ?_⟩
  obtain ⟨h1, h2⟩ := C77_pair lu !![2, 0, 1; 0, 0, 0; 1, 0, 2] ![3, 7, 0] 2 1 (by simp)
    (by intro j; fin_cases j <;> simp) (by simp; norm_num) hF
  have k0 := h2 0 (by decide)
  have k2 := h2 2 (by decide)
  simp [Fin.sum_univ_three] at k0 k2
  constructor <;> linarith

/-- The hypotheses of `C77_regular` are met by `[[1, 2], [2, 5]]` with exchanged rows: here the exchange is not lost. -/
example : ∃ lu : ℕ → (ℕ → ℕ → ℝ) → (ℕ → ℕ → ℝ) × (ℕ → ℕ),
    ∀ b : Fin 2 → ℝ, ∀ i : Fin 2, solve lu 2 (arr !![1, 2; 2, 5]) (vec b) i =
      ((!![1, 2; 2, 5] : Matrix (Fin 2) (Fin 2) ℝ)⁻¹ *ᵥ b) i :=
  ⟨fun _ _ => (fun i j => if i = 0 then (if j = 0 then 2 else 5) else (if j = 0 then 1 / 2 else -1 / 2), fun i => 1 - i),
    fun b i => C77_regular _ _ b (fun _ => demo_factors _ rfl rfl rfl rfl) (by rw [Matrix.det_fin_two_of]; norm_num) i⟩

/-- The hypotheses of `C77_first_missing` and `C77_lone_many` are met by matrices on which nothing is to be eliminated. -/
example : ∃ lu : ℕ → (ℕ → ℕ → ℝ) → (ℕ → ℕ → ℝ) × (ℕ → ℕ),
    (decomp lu 3 (arr (Matrix.diagonal ![0, 2, 3]))).1 1 1 = 0 ∧
    solve lu 4 (arr fun k l : Fin 4 => if (k : ℕ) = 0 ∧ (l : ℕ) = 0 then 2 else 0) (vec ![6, 0, 0, 0]) 0 = 12 := by
  have up : ∀ (n : ℕ) (B : ℕ → ℕ → ℝ), (∀ i < n, ∀ j < i, B i j = 0) → Factors n B B id := by
    intro n B h
    refine ⟨fun i hi => hi, fun i _ j _ h => h, ?_, fun _ => ⟨fun _ _ _ _ => rfl, fun _ _ => rfl⟩⟩
    intro i hi j hj
    rw [sum_eq_single i]
    · rw [if_neg (lt_irrefl i), if_pos rfl, one_mul]
      split_ifs with hc
      · rfl
      · exact h i hi j (by omega)
    · intro k hk hki
      by_cases h1 : k < i
      · rw [if_pos h1, h i hi k h1, zero_mul]
      · rw [if_neg h1, if_neg hki, zero_mul]
    · intro h; exact absurd (mem_range.mpr hi) h
  refine ⟨fun _ B => (B, id), (C77_first_missing _ _ ?_ ⟨1, by simp⟩ ⟨2, by simp⟩ ?_).2, ?_⟩
  · intro j; fin_cases j <;> simp
  · intro B _ _ h10 _
    refine up 2 B fun i hi j hj => ?_
    obtain ⟨rfl, rfl⟩ : i = 1 ∧ j = 0 := by omega
    exact h10
  · refine (C77_lone_many le_rfl _ 2 two_ne_zero _ (up 4 _ fun i hi j hj => ?_)).trans ?_
    · unfold arr
      rw [dif_pos ⟨hi, by omega⟩]
      exact if_neg (by simp only; omega)
    · simp [vec]; norm_num

end

end Verif.Num.PackedLU
