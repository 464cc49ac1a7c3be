import Verif.Prelude
import Mathlib.Data.Rat.Floor

/-!
IEEE-754 binary64 rounding (round to nearest, ties to even) of rationals, without overflow and
subnormals. Used only to exhibit concrete floating point runs; it models the C type `double`, not a
function of /repo.
-/

namespace Magma.Num

/-- Nearest integer, ties to even. -/
def roundEven (x : ℚ) : ℤ :=
  let f := ⌊x⌋
  let r := x - f
  if r < 1 / 2 then f else if 1 / 2 < r then f + 1 else if f % 2 = 0 then f else f + 1

/-- Exponent `e` with `2^e ≤ |x| < 2^(e+1)`, by repeated doubling or halving (`fuel` bounds it). -/
def expo : ℕ → ℚ → ℤ → ℤ
  | 0, _, e => e
  | n + 1, x, e => if x < 1 then expo n (x * 2) (e - 1) else if 2 ≤ x then expo n (x / 2) (e + 1) else e

/-- Rounding to 53 significant bits. -/
def rnd (x : ℚ) : ℚ :=
  if x = 0 then 0
  else
    let e := expo 1100 |x| 0
    let ulp : ℚ := (2 : ℚ) ^ (e - 52)
    roundEven (x / ulp) * ulp

/-- `0.1` is the usual binary64 number. -/
example : rnd (1 / 10) = 3602879701896397 / 36028797018963968 := by decide +kernel

end Magma.Num
