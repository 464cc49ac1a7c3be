import Verif.Num.PackedPair
import Verif.Thermo.Ordering

/-!
The exact solution of the linear equations that the model of `order()` assumes (Thermo/Ordering.lean) is what the program's own
solver (/repo/sources/melts_linalg.c, Num/PackedLU.lean) returns.
-/

namespace Verif.Thermo.Ordering

open Verif.Num.PackedLU (arr vec Factors)

/-- C77. `order()` gets from `melts_LU_decomp` and `melts_LU_solve` exactly the solution its derivatives are defined by, for any
number of ordering parameters, whenever the second derivatives with respect to them form a nonsingular matrix. -/
theorem C77_order {ι : Type} [Fintype ι] [DecidableEq ι] {N : ℕ} (lu : ℕ → (ℕ → ℕ → ℝ) → (ℕ → ℕ → ℝ) × (ℕ → ℕ))
    (J : Jets ι (Fin N)) (x : ι ⊕ Fin N → ℝ) (rhs : Fin N → ℝ)
    (hlu : 2 ≤ N → Factors N (arr (negHess J x)) (lu N (arr (negHess J x))).1 (lu N (arr (negHess J x))).2)
    (hA : (negHess J x).det ≠ 0) (i : Fin N) :
    Verif.Num.PackedLU.solve lu N (arr (negHess J x)) (vec rhs) i = solve J x rhs i :=
  Verif.Num.PackedLU.C77_regular lu (negHess J x) rhs hlu hA i

/-- Two ordering parameters with `g = -(s₀² + 4 s₀ s₁ + 5 s₁²)/2`, so that minus the matrix of second derivatives is
`[[1, 2], [2, 5]]`: the hypotheses are met. -/
example : ∃ (lu : ℕ → (ℕ → ℕ → ℝ) → (ℕ → ℕ → ℝ) × (ℕ → ℕ)) (J : Jets (Fin 1) (Fin 2)), ∀ x rhs, ∀ i : Fin 2,
    Verif.Num.PackedLU.solve lu 2 (arr (negHess J x)) (vec rhs) i = solve J x rhs i := by
  refine ⟨fun _ _ => (fun i j => if i = 0 then (if j = 0 then 2 else 5) else (if j = 0 then 1 / 2 else -1 / 2), fun i => 1 - i),
    ⟨0, 0, fun _ a b => match a, b with | .inr k, .inr l => -(!![1, 2; 2, 5] : Matrix (Fin 2) (Fin 2) ℝ) k l | _, _ => 0, 0⟩,
    fun x rhs i => ?_⟩
  refine C77_order _ _ x rhs (fun _ => Verif.Num.PackedLU.demo_factors _ ?_ ?_ ?_ ?_) ?_ i
  · simp [arr, negHess]
  · simp [arr, negHess]
  · simp [arr, negHess]
  · simp [arr, negHess]
  · rw [Matrix.det_fin_two]; simp [negHess]; norm_num

end Verif.Thermo.Ordering
