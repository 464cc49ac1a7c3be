import Mathlib.Analysis.SpecialFunctions.Log.Basic
import Verif.Num.Modmrt
import Verif.Num.Reduced
import Verif.Thermo.MuO2

/-!
Estimate of the composition and affinity of a solid solution (or of the liquid below the solidus) that is not present,
`getAffinityAndComposition` (/repo/sources/est_saturation_state.c 165-398).

`mu i` is the argument `muMinusMu0[i]`: the standard potential of end member `i` less the potential it would have in the
coexisting liquid. The affinity `A` and the composition solve `A = mu i + RT ln a_i` for every end member that is not
excluded (`zeroX`); a negative affinity means that the phase is supersaturated.

Simplifications: `double` is the real numbers; vectors are functions on indices; static work arrays are values; the
starting points that the search inside a solvus (`computeSolnWithinSolvus`, lines 471-679) hands to the least-squares
solver are an argument (`retry`), `none` if the search for a direction of negative curvature fails.
-/

namespace Magma.Engine.Saturation

open Finset Magma.Num Magma.Num.Householder Magma.Num.Constraint

noncomputable section

/-- A solution phase as the routine sees it: its functions `convert`, `activity` and `test` at the given temperature and
pressure. For the liquid, `conLiq`, `actLiq`, `testLiq`. -/
structure Soln where
  /-- number of end members; `nr = na - 1` (est_saturation_state.c 222) -/
  na : ℕ
  /-- `convert(SECOND, THIRD, ...)`: mole fractions to independent variables -/
  conv : (ℕ → ℝ) → ℕ → ℝ
  /-- `convert(THIRD, SEVENTH, ...)`: derivatives of the mole fractions by the independent variables -/
  dxdr : (ℕ → ℝ) → ℕ → ℕ → ℝ
  /-- `activity(FIRST, ...)` -/
  act : (ℕ → ℝ) → ℕ → ℝ
  /-- `activity(THIRD, ...)` -/
  dact : (ℕ → ℝ) → ℕ → ℕ → ℝ
  /-- `test(FIFTH, ...)` -/
  test : (ℕ → ℝ) → Bool

/-- `nullList`: the end members that are not excluded, est_saturation_state.c 231-234. -/
def live (na : ℕ) (zero : ℕ → Bool) : List ℕ := (List.range na).filter fun i => !zero i

/-- The excluded end members in the order of their rows in the constraint matrix, est_saturation_state.c 250-251. -/
def nulls (na : ℕ) (zero : ℕ → Bool) : List ℕ := (List.range na).filter fun i => zero i

/-- `SCALE`, est_saturation_state.c 160. -/
def SCALE : ℝ := 1000

/-- `DBL_EPSILON`. -/
def eps : ℝ := 1 / 2 ^ 52

/-- The mole fractions of the first guess for `nz` end members with potentials `mu 0, ..., mu (nz-1)`,
est_saturation_state.c 428-444 (and est_satState_revised.c 114-130 with `mu + RT ln gamma` for `mu`). -/
def idealFrac (RT : ℝ) (mu : ℕ → ℝ) (nz i : ℕ) : ℝ :=
  if nz = 1 then 1
  else
    let f := fun k => Real.exp (-(mu k - mu (nz - 2)) / RT)
    let sum := 1 + ∑ k ∈ range (nz - 2), f k
    let e := Real.exp (-(mu (nz - 2) - mu (nz - 1)) / RT)
    let x := e / (1 + e * sum)
    if i < nz - 2 then f i * x
    else if i = nz - 2 then x
    else 1 - x - ∑ k ∈ range (nz - 2), f k * x

/-- Its affinity over `SCALE`, est_saturation_state.c 428, 447. -/
def idealAffinity (RT : ℝ) (mu : ℕ → ℝ) (nz : ℕ) : ℝ :=
  if nz = 1 then mu 0 / SCALE else (mu 0 + RT * Real.log (idealFrac RT mu nz 0)) / SCALE

/-- Reassembly in place of the vector of mole fractions, est_saturation_state.c 453-456: from the last end member down,
an excluded one gets zero, any other one the next condensed entry from the end. -/
def expand (zero : ℕ → Bool) : ℕ → ℕ → (ℕ → ℝ) → ℕ → ℝ
  | 0, _, m => m
  | i + 1, j, m => if zero i then expand zero i j (Function.update m i 0)
      else expand zero i (j - 1) (Function.update m i (m (j - 1)))

/-- `initialGuess`, est_saturation_state.c 404-468: mole fractions of all end members. -/
def guessFrac (S : Soln) (RT : ℝ) (zero : ℕ → Bool) (mu : ℕ → ℝ) : ℕ → ℝ :=
  let l := live S.na zero
  let m := idealFrac RT (fun k => mu (l.getD k 0)) l.length
  if l.length < S.na then expand zero S.na l.length m else m

/-- Variables of the routine that are fixed before the first call of the solver. -/
structure Frame where
  /-- number of excluded end members -/
  ne : ℕ
  /-- number of independent variables -/
  nr : ℕ
  /-- Householder vectors of the constraints (`dxdr`, `hVec`) -/
  F : (ℕ → ℕ → ℝ) × (ℕ → ℝ)
  /-- `yVec` -/
  y : ℕ → ℝ

/-- est_saturation_state.c 267, 287, 711: entries of the order of the rounding error are set to zero. -/
def clean (v : ℕ → ℝ) (i : ℕ) : ℝ := if |v i| < 10 * eps then 0 else v i

/-- est_saturation_state.c 243-254, 261-269: the matrix of the constraints is triangularised and the first guess
projected. -/
def frame (S : Soln) (zero : ℕ → Bool) (h0 b0 : ℕ → ℝ) : Frame :=
  let ne := (nulls S.na zero).length
  let nr := S.na - 1
  let F := decomp ne nr ne (fun i => S.dxdr b0 ((nulls S.na zero).getD i 0), h0)
  { ne := ne, nr := nr, F := F, y := clean (chain F.1 F.2 nr ne b0) }

/-- The point in composition space belonging to the reduced vector `z`, est_saturation_state.c 703-712 and 282-288. -/
def Frame.point (f : Frame) (z : ℕ → ℝ) : ℕ → ℝ :=
  if f.ne = 0 then z else clean (back f.F.1 f.F.2 f.nr f.ne fun i => if i < f.ne then f.y i else z (i - f.ne))

/-- The problem given to `modmrt`: `func` and `grad`, est_saturation_state.c 683-769. Parameter `nz - 1` is the affinity
over `SCALE`. -/
def problem (S : Soln) (RT : ℝ) (zero : ℕ → Bool) (mu : ℕ → ℝ) (f : Frame) (reltest : ℝ) : Modmrt.Problem :=
  let l := live S.na zero
  { n := l.length, m := l.length, reltest := reltest, maxIter := 250
    res := fun b i =>
      if S.test (f.point b) then
        some ((-RT * Real.log (S.act (f.point b) (l.getD i 0)) + b (l.length - 1) * SCALE - mu (l.getD i 0)) / SCALE)
      else none
    jac := fun b i j =>
      if j < l.length - 1 then
        -RT * chain f.F.1 f.F.2 f.nr f.ne (S.dact (f.point b) (l.getD i 0)) (j + f.ne)
          / (S.act (f.point b) (l.getD i 0) * SCALE)
      else 1 }

/-- One call of the solver; the reduced vector and `Fmin` if it reports success. The budget of passes suffices
(`C53_terminates`). -/
def solveOnce (P : Modmrt.Problem) (b : ℕ → ℝ) : Option ((ℕ → ℝ) × ℝ) :=
  match Modmrt.modmrt P (P.maxIter + 2) b with
  | some (.success, some s) => some (s.b, s.fmin)
  | _ => none

/-- `sqrt(DBL_EPSILON)`, est_saturation_state.c 291, 477. -/
def small : ℝ := Real.sqrt eps

/-- `computeSolnWithinSolvus` after the searches, est_saturation_state.c 565-660: a first and a second start. -/
def again (P : Modmrt.Problem) (retry : Option ((ℕ → ℝ) × (ℕ → ℝ))) : Option (ℕ → ℝ) :=
  match retry with
  | none => none
  | some g =>
    match solveOnce P g.1 with
    | some r => if r.2 > small then
          match solveOnce P g.2 with
          | some r' => if r'.2 > small then none else some r'.1
          | none => none
        else some r.1
    | none =>
      match solveOnce P g.2 with
      | some r' => if r'.2 > small then none else some r'.1
      | none => none

/-- `getAffinityAndComposition`, est_saturation_state.c 165-398: the affinity and the independent variables, `none` for
`FAILURE`. `h0` is the old content of `hVec`. -/
def getAffinity (S : Soln) (T P : ℝ) (zero : ℕ → Bool) (mu h0 : ℕ → ℝ) (retry : Option ((ℕ → ℝ) × (ℕ → ℝ))) :
    Option (ℝ × (ℕ → ℝ)) :=
  let RT := Magma.Thermo.MuO2.R * T
  let nz := (live S.na zero).length
  if T ≤ 0 ∨ P < 0 ∨ nz = 0 then none
  else
    let b0 := S.conv (guessFrac S RT zero mu)
    let f := frame S zero h0 b0
    let z0 := fun i => if i < nz - 1 then chain f.F.1 f.F.2 f.nr f.ne b0 (f.ne + i)
      else idealAffinity RT (fun k => mu ((live S.na zero).getD k 0)) nz
    let ret := fun z : ℕ → ℝ => (z (nz - 1) * SCALE, f.point z)
    match solveOnce (problem S RT zero mu f (1 / 10 ^ 6)) z0 with
    | none => none
    | some r => if r.2 > small then (again (problem S RT zero mu f small) retry).map ret else some (ret r.1)

end

end Magma.Engine.Saturation
