import Mathlib.Analysis.SpecialFunctions.Exp
import Verif.Engine.SaturationMin

/-!
Estimates of the composition and affinity of absent feldspar and pyroxenes by successive substitution of activity
coefficients, `getAffinityAndCompositionGeneric` and `getAffinityAndCompositionPyroxene`
(/repo/sources/est_satState_revised.c 54-162, 512-732).

Simplifications: `double` is the real numbers; static arrays are values; the two routines share one loop (`Scheme`), as
their loops are the same text apart from the number of species, the reduction of species to end members and the update
of the activity coefficients; the energy corrections of the dependent pyroxene species (constants of lines 168-505) are
an arbitrary function `corr`.
-/

namespace Magma.Engine.Saturation

open Finset Magma.Num

noncomputable section

/-- What distinguishes the two routines. -/
structure Scheme where
  /-- number of species (`na`, or `ns = na + 7`) -/
  ns : ℕ
  /-- `nullComp` -/
  zero : ℕ → Bool
  /-- potential of species `i` less that of its components in the liquid (`mu`, before it is condensed) -/
  mu : ℕ → ℝ
  /-- mole fractions of species to independent variables (`convert`, after the reduction `mFR`) -/
  point : (ℕ → ℝ) → ℕ → ℝ
  /-- update of `gVec` from the mole fractions, est_satState_revised.c 145-150, 680-713 -/
  next : (ℕ → ℝ) → (ℕ → ℝ) → ℕ → ℝ

/-- `condense the activity cofficient vector`, est_satState_revised.c 115, 643: in place, ascending. The number of
entries written and the array. -/
def condense (RT : ℝ) (zero : ℕ → Bool) : ℕ → (ℕ → ℝ) → ℕ × (ℕ → ℝ)
  | 0, g => (0, g)
  | i + 1, g =>
    let p := condense RT zero i g
    if zero i then p else (p.1 + 1, Function.update p.2 p.1 (RT * Real.log (p.2 i)))

/-- State at the end of a pass of the `while` loop: mole fractions, affinity over `SCALE`, `gVec`, `foundSolution`,
`iter`. -/
structure Pass where
  x : ℕ → ℝ
  aff : ℝ
  g : ℕ → ℝ
  found : Bool
  iter : ℕ

/-- Before the loop, est_satState_revised.c 104-105, 632-633 (`x` not yet defined). -/
def first : Pass := { x := 0, aff := 100000, g := fun _ => 1, found := false, iter := 0 }

/-- `gVec` after the condensation; unchanged for one species (est_satState_revised.c 111-115). -/
def Scheme.gOf (Q : Scheme) (RT : ℝ) (g : ℕ → ℝ) : ℕ → ℝ :=
  if (live Q.ns Q.zero).length = 1 then g else (condense RT Q.zero Q.ns g).2

/-- Condensed mole fractions, est_satState_revised.c 111-129, 639-657. -/
def Scheme.frac (Q : Scheme) (RT : ℝ) (g : ℕ → ℝ) : ℕ → ℝ :=
  let l := live Q.ns Q.zero
  idealFrac RT (fun k => Q.mu (l.getD k 0) + Q.gOf RT g k) l.length

/-- `bVec[na-1]`, est_satState_revised.c 112, 132, 640, 660. -/
def Scheme.aff (Q : Scheme) (RT : ℝ) (g : ℕ → ℝ) : ℝ :=
  let l := live Q.ns Q.zero
  if l.length = 1 then (Q.mu (l.getD 0 0) - g 0) / SCALE
  else (Q.mu (l.getD 0 0) + RT * Real.log (Q.frac RT g 0) + Q.gOf RT g 0) / SCALE

/-- Mole fractions of all species, est_satState_revised.c 136-139, 664-667. -/
def Scheme.all (Q : Scheme) (RT : ℝ) (g : ℕ → ℝ) : ℕ → ℝ :=
  let n := (live Q.ns Q.zero).length
  if n < Q.ns then expand Q.zero Q.ns n (Q.frac RT g) else Q.frac RT g

/-- Body of the loop, est_satState_revised.c 107-158, 635-728. -/
def Scheme.pass (Q : Scheme) (RT : ℝ) (s : Pass) : Pass :=
  let x := Q.all RT s.g
  let found := decide (|s.aff - Q.aff RT s.g| < (1 / 10) / SCALE)
  { x := x, aff := Q.aff RT s.g, found := found, iter := s.iter + 1
    g := if found then Q.gOf RT s.g else Q.next x (Q.gOf RT s.g) }

/-- The loop: at most 100 passes. -/
def Scheme.loop (Q : Scheme) (RT : ℝ) : ℕ → Pass → Pass
  | 0, s => s
  | k + 1, s => if s.found then s else Q.loop RT k (Q.pass RT s)

/-- Affinity, independent variables and return code, est_satState_revised.c 159-161, 729-731; `none` if the routine
returns before it writes a result. -/
def Scheme.run (Q : Scheme) (T P : ℝ) : Option (ℝ × (ℕ → ℝ) × Bool) :=
  if T ≤ 0 ∨ P < 0 ∨ (live Q.ns Q.zero).length = 0 then none
  else
    let s := Q.loop (Magma.Thermo.MuO2.R * T) 100 first
    some (s.aff * SCALE, Q.point s.x, decide (s.iter < 100))

/-- `getAffinityAndCompositionGeneric`, est_satState_revised.c 54-162. -/
def generic (S : Soln) (zero : ℕ → Bool) (mu : ℕ → ℝ) : Scheme where
  ns := S.na
  zero := zero
  mu := mu
  point := S.conv
  next := fun x g i => if i < S.na ∧ x i ≠ 0 then S.act (S.conv x) i / x i else g i

/-! ### Pyroxenes -/

/-- `mu0[i]` and `mu[i]` of the dependent species from those of the end members, est_satState_revised.c 557-626. -/
def dep (f : ℕ → ℝ) (corr : ℕ → ℝ) (s : ℕ) : ℝ :=
  if s = 7 then f 3 + f 2 / 2 - f 0 / 2 + corr 7
  else if s = 8 then f 4 + f 2 / 2 - f 0 / 2 + corr 8
  else if s = 9 then f 5 - f 4 + f 3 + corr 9
  else if s = 10 then f 5 - f 4 + f 3 + f 1 - f 0 + corr 10
  else if s = 11 then f 5 - f 4 + f 3 + f 2 + f 1 - 2 * f 0 + corr 11
  else if s = 12 then f 6 + f 4 - f 3 + corr 12
  else if s = 13 then f 1 + 2 * f 2 - 2 * f 0 + corr 13
  else f s

/-- `nullComp` of the fourteen species, est_satState_revised.c 549-626. -/
def depNull (z : ℕ → Bool) (s : ℕ) : Bool :=
  if s = 7 then !(!z 0 && !z 2 && !z 3)
  else if s = 8 then !(!z 0 && !z 2 && !z 4)
  else if s = 9 then !(!z 3 && !z 4 && !z 5)
  else if s = 10 then !(!z 0 && !z 1 && !z 3 && !z 4 && !z 5)
  else if s = 11 then !(!z 0 && !z 1 && !z 2 && !z 3 && !z 4 && !z 5)
  else if s = 12 then !(!z 3 && !z 4 && !z 6)
  else if s = 13 then !(!z 0 && !z 1 && !z 2)
  else z s

/-- `mFR`, est_satState_revised.c 669-675: mole fractions of species to moles of end members. -/
def reduce (m : ℕ → ℝ) (i : ℕ) : ℝ :=
  if i = 0 then m 0 - m 7 / 2 - m 8 / 2 - m 10 - 2 * m 11 - 2 * m 13
  else if i = 1 then m 1 + m 10 + m 11 + m 13
  else if i = 2 then m 2 + m 7 / 2 + m 8 / 2 + m 11 + 2 * m 13
  else if i = 3 then m 3 + m 7 + m 9 + m 10 + m 11 - m 12
  else if i = 4 then m 4 + m 8 - m 9 - m 10 - m 11 + m 12
  else if i = 5 then m 5 + m 9 + m 10 + m 11
  else m 6 + m 12

/-- `activity[7..13]`, est_satState_revised.c 685-712: `u` is `muR`, `m0` is `mu0`. -/
def depAct (RT : ℝ) (u m0 : ℕ → ℝ) (s : ℕ) : ℝ :=
  if s = 7 then Real.exp ((u 3 - u 0 / 2 + u 2 / 2 + m0 3 - m0 0 / 2 + m0 2 / 2 - m0 7) / RT)
  else if s = 8 then Real.exp ((u 4 - u 0 / 2 + u 2 / 2 + m0 4 - m0 0 / 2 + m0 2 / 2 - m0 8) / RT)
  else if s = 9 then Real.exp ((u 5 - u 4 + u 3 + m0 5 - m0 4 + m0 3 - m0 9) / RT)
  else if s = 10 then Real.exp ((u 5 - u 4 + u 3 - u 0 + u 1 + m0 5 - m0 4 + m0 3 - m0 0 + m0 1 - m0 10) / RT)
  else if s = 11 then
    Real.exp ((u 5 - u 4 + u 3 - 2 * u 0 + u 1 + u 2 + m0 5 - m0 4 + m0 3 - 2 * m0 0 + m0 1 + m0 2 - m0 11) / RT)
  else if s = 12 then Real.exp ((u 6 - u 3 + u 4 + m0 6 - m0 3 + m0 4 - m0 12) / RT)
  else Real.exp ((u 1 - 2 * u 0 + 2 * u 2 + m0 1 - 2 * m0 0 + 2 * m0 2 - m0 13) / RT)

/-- The pyroxene as the routine sees it: `convert`, `activity(FIRST, ...)` and `activity(SECOND, ...)`. -/
structure Pyx where
  conv : (ℕ → ℝ) → ℕ → ℝ
  act : (ℕ → ℝ) → ℕ → ℝ
  muR : (ℕ → ℝ) → ℕ → ℝ

/-- `getAffinityAndCompositionPyroxene`, est_satState_revised.c 512-732. `g0 i` is `(solids[solidID+1+i].cur).g`; `mu0`
of an excluded dependent species is zero there, but is then not used. -/
def pyroxene (X : Pyx) (T : ℝ) (z : ℕ → Bool) (mu g0 corr : ℕ → ℝ) : Scheme where
  ns := 14
  zero := depNull z
  mu := dep mu corr
  point := fun m => X.conv (reduce m)
  next := fun m g s =>
    let b := X.conv (reduce m)
    if s < 7 then (if reduce m s ≠ 0 then X.act b s / m s else g s)
    else if m s ≠ 0 then depAct (Magma.Thermo.MuO2.R * T) (X.muR b) (dep g0 corr) s / m s else 1

/-! ### Their use -/

/-- The estimators of `evaluateSaturationState`, evaluate_saturation.c 353-442 (compiled with `RHYOLITE_ADJUSTMENTS`). -/
inductive Method where
  /-- feldspar, orthopyroxene, clinopyroxene -/
  | substitution (Q : Scheme)
  /-- every other phase -/
  | leastSquares (r : Option (ℝ × (ℕ → ℝ)))

/-- The affinity and composition that `evaluateSaturationState` stores in `rSol`, evaluate_saturation.c 353-379, 441:
the return code of the substitution methods is not looked at, a failure of the least-squares method stores zeros.
Simplification: for nepheline and kalsilite (413-439) the least-squares method is called again with the same arguments
before zeros are stored; if a substitution method returns before writing, `rSol[i]` keeps the zero of line 309. -/
def estimate (T P : ℝ) : Method → ℝ × (ℕ → ℝ)
  | .substitution Q => match Q.run T P with
    | some r => (r.1, r.2.1)
    | none => (0, 0)
  | .leastSquares r => r.getD (0, 0)

end

end Magma.Engine.Saturation
