import Verif.Engine.SaturationProps
import Verif.Engine.AddDropProps
import Verif.Num.Vmmin

/-!
The test whether a solution that is present should unmix: `checkForCoexistingSolids`
(/repo/sources/check_coexisting_solids.c 205-453) and `checkForCoexistingLiquids`
(/repo/sources/check_coexisting_liquids.c 121-398).

Simplifications: `double` is the real numbers; the thermodynamic functions of a solution (`convert`, `gmix`, `test`)
are arbitrary functions at the given temperature and pressure; work arrays are values, what `hVec` held before is an
argument (`h0`); memory management and printing are dropped; the positive-definiteness test of the second derivatives
(check_coexisting_liquids.c 168-185) has no effect. `N` bounds the steps of a line search of `vmmin` (enough exist,
`C20_terminates`), `fuel` the halvings of the seed.
-/

namespace Magma.Engine.Unmix

open Finset Magma.Num Magma.Num.Householder Magma.Num.Constraint Magma.Engine.Saturation

noncomputable section

/-- A solution as the routines see it. -/
structure Mix where
  /-- number of end members; `nr = na - 1` -/
  na : ℕ
  /-- `convert(SECOND, THIRD, ...)`: moles of end members to independent variables -/
  conv : (ℕ → ℝ) → ℕ → ℝ
  /-- `convert(THIRD, FOURTH, ...)`: independent variables to mole fractions -/
  frac : (ℕ → ℝ) → ℕ → ℝ
  /-- `convert(THIRD, SEVENTH, ...)`: derivatives of the mole fractions by the independent variables -/
  dxdr : (ℕ → ℝ) → ℕ → ℕ → ℝ
  /-- `gmix(FIRST, ...)`, `gmix(SECOND, ...)` -/
  gmix : (ℕ → ℝ) → ℝ
  dgmix : (ℕ → ℝ) → ℕ → ℝ
  /-- the composition at which the energy is taken for a trial composition, `none` if that is infeasible. For a solid
  `test(FIFTH, ...)` decides and the composition is the trial one (check_coexisting_solids.c 427); for a liquid
  likewise, but on an oxygen buffer it is the one with the ferric iron of the imposed fugacity
  (check_coexisting_liquids.c 343-370) -/
  eval : (ℕ → ℝ) → Option (ℕ → ℝ)

/-- `nullComp`, check_coexisting_solids.c 275-276, check_coexisting_liquids.c 188-189. -/
def zero (m : ℕ → ℝ) (i : ℕ) : Bool := decide (m i = 0)

/-- `bRef`, check_coexisting_solids.c 261, check_coexisting_liquids.c 166. -/
def ref (M : Mix) (m : ℕ → ℝ) : ℕ → ℝ := M.conv m

/-- The function minimised, at a feasible composition `t`: its height above the tangent plane at the reference
composition, check_coexisting_solids.c 430-433, check_coexisting_liquids.c 373-376. -/
def height (M : Mix) (b t : ℕ → ℝ) : ℝ := M.gmix t - M.gmix b - ∑ j ∈ range (M.na - 1), M.dgmix b j * (t j - b j)

/-- The moles from which the search in direction of end member `i` starts, check_coexisting_solids.c 289-290,
check_coexisting_liquids.c 206-207. -/
def startMoles (M : Mix) (m : ℕ → ℝ) (i j : ℕ) : ℝ :=
  if zero m j then 0 else if j = i then 10 * ((M.na - (nulls M.na (zero m)).length : ℕ) : ℝ) else 1

/-- The rotation that takes out the absent end members, check_coexisting_solids.c 281-285 (the derivatives are those at
the reference composition), and the fixed entries for the start `b0`, 293-296; check_coexisting_liquids.c 193-202,
210-213. -/
def unFrame (M : Mix) (m h0 b0 : ℕ → ℝ) : Frame :=
  let ne := (nulls M.na (zero m)).length
  let nr := M.na - 1
  let F := decomp ne nr ne (fun i => M.dxdr (ref M m) ((nulls M.na (zero m)).getD i 0), h0)
  { ne := ne, nr := nr, F := F, y := clean (chain F.1 F.2 nr ne b0) }

/-- A vector of length `n` as a function on all indices. -/
def ext {n : ℕ} (z : Fin n → ℝ) (i : ℕ) : ℝ := if h : i < n then z ⟨i, h⟩ else 0

/-- `nz` after check_coexisting_solids.c 277: the number of free variables. -/
def nz (M : Mix) (m : ℕ → ℝ) : ℕ := (live M.na (zero m)).length - 1

/-- The problem given to `vmmin`: `fminfn` and `fmingr`, check_coexisting_solids.c 412-453,
check_coexisting_liquids.c 326-398. The gradient is taken at the composition evaluated last, which is that of the
parameters `z` in every call `vmmin` makes. -/
def problem (M : Mix) (m : ℕ → ℝ) (f : Frame) : Vmmin.Problem ℝ (nz M m) where
  f := fun z => (M.eval (f.point (ext z))).map (height M (ref M m))
  gr := fun z i => chain f.F.1 f.F.2 f.nr f.ne
    (fun j => M.dgmix ((M.eval (f.point (ext z))).getD (f.point (ext z))) j - M.dgmix (ref M m) j) (i + f.ne)
  reltest := small

/-- One direction of the search, check_coexisting_solids.c 289-309, check_coexisting_liquids.c 206-234: a composition
more than `sqrt(eps)*|gRef|` below the tangent plane. -/
def candidate (M : Mix) (h0 : ℕ → ℝ) (N : ℕ) (m : ℕ → ℝ) (i : ℕ) : Option (ℕ → ℝ) :=
  let b0 := M.conv (startMoles M m i)
  let f := unFrame M m h0 b0
  match Vmmin.vmmin (problem M m f) N (fun k => chain f.F.1 f.F.2 f.nr f.ne b0 (f.ne + k)) with
  | some (.success, some s) => if s.fmin < -(small * |M.gmix (ref M m)|) then some (f.point (ext s.b)) else none
  | _ => none

/-- All directions, check_coexisting_solids.c 287-319, check_coexisting_liquids.c 204-246. -/
def candidates (M : Mix) (h0 : ℕ → ℝ) (N : ℕ) (m : ℕ → ℝ) : List (ℕ → ℝ) :=
  (live M.na (zero m)).filterMap (candidate M h0 N m)

/-- `rTr`, check_coexisting_solids.c 306-307. -/
def rTr (M : Mix) (m r : ℕ → ℝ) : ℝ := ∑ j ∈ range (M.na - 1), (r j - ref M m j) ^ 2

/-- check_coexisting_solids.c 346-347, check_coexisting_liquids.c 292-293: the first of those most distant. -/
def farthest (d : (ℕ → ℝ) → ℝ) : List (ℕ → ℝ) → Option (ℕ → ℝ)
  | [] => none
  | c :: cs => some (cs.foldl (fun best x => if d x > d best then x else best) c)

/-- What one copy unmixes into, if it does. -/
def split (M : Mix) (h0 : ℕ → ℝ) (N : ℕ) (m : ℕ → ℝ) : Option (ℕ → ℝ) := farthest (rTr M m) (candidates M h0 N m)

/-! ### Solids -/

/-- The labels that are treated apart, check_coexisting_solids.c 238-246. -/
inductive Label
  | orthopyroxene
  | feldspar
  | clinopyroxene
  | other
deriving DecidableEq

/-- The phase is not tested with `n` copies present, check_coexisting_solids.c 238-246. -/
def blocked (l : Label) (n : ℕ) : Bool :=
  match l with
  | .orthopyroxene => true
  | .feldspar => decide (2 ≤ n)
  | .clinopyroxene => decide (3 ≤ n)
  | .other => false

variable {nc nlc : ℕ}

/-- The moles of the end members of a copy. -/
def moles (x : Inst ℝ) (i : ℕ) : ℝ := x.comps.getD i 0

/-- What a solid unmixes into: the copies are tested in turn until one does, check_coexisting_solids.c 256-347. -/
def found (M : Mix) (l : Label) (h0 : (ℕ → ℝ) → ℕ → ℝ) (N : ℕ) (q : SState nc nlc ℝ) : Option (ℕ → ℝ) :=
  if blocked l q.insts.length then none
  else q.insts.findSome? fun x => split M (h0 (moles x)) N (moles x)

/-- The mole fractions of the new copy, check_coexisting_solids.c 308. -/
def fractions (M : Mix) (r : ℕ → ℝ) : List ℝ := (List.range M.na).map (M.frac r)

/-- Take `inmass` moles of the given fractions from the last copy, check_coexisting_solids.c 363, 367. -/
def takeFrom (m : List ℝ) (inmass : ℝ) (x : Inst ℝ) : Inst ℝ :=
  ⟨x.tot - inmass, List.zipWith (fun c a => c - a * inmass) x.comps m⟩

/-- Apply a function to the last element. -/
def onLast {α : Type} (f : α → α) : List α → List α
  | [] => []
  | [x] => [f x]
  | x :: xs => x :: onLast f xs

/-- The new copy, check_coexisting_solids.c 348-368: it is taken from the first liquid, halving its amount until
`testLiq` accepts the liquid that is left (no lower limit), or, without liquid, from the copy that was last in the
list. `none`: the halving does not end. -/
def addCopy (test : (Fin nlc → ℝ) → Bool) (massin : ℝ) (fuel k : ℕ) (q : SState nc nlc ℝ) (m : List ℝ)
    (s : Sys nc nlc ℝ) : Option (Sys nc nlc ℝ) :=
  match s.liquids with
  | l0 :: ls =>
    match seedLoop test 0 l0 q.ph m fuel massin with
    | some (some inmass) =>
      let x := seed q.ph m inmass
      some { s with
        liquids := (fun j => l0 j - liqOf q.ph x j) :: ls
        solids := setSolid s.solids k { q with insts := q.insts ++ [x] } }
    | _ => none
  | [] =>
    some { s with
      solids := setSolid s.solids k { q with insts := onLast (takeFrom m massin) q.insts ++ [seed q.ph m massin] } }

/-- What the routine needs to know of a phase. -/
structure Info where
  mix : Mix
  label : Label

/-- The loop over the phases, check_coexisting_solids.c 236-380: the state and the returned flag. Pure phases
(no end members listed) are passed over. -/
def solidsLoop (info : ℕ → Info) (h0 : (ℕ → ℝ) → ℕ → ℝ) (N : ℕ) (test : (Fin nlc → ℝ) → Bool) (massin : ℝ) (fuel : ℕ) :
    List ℕ → Sys nc nlc ℝ × Bool → Option (Sys nc nlc ℝ × Bool)
  | [], r => some r
  | k :: ks, r =>
    match r.1.solids[k]? with
    | none => solidsLoop info h0 N test massin fuel ks r
    | some q =>
      if q.ph.ems = [] then solidsLoop info h0 N test massin fuel ks r
      else match found (info k).mix (info k).label h0 N q with
        | none => solidsLoop info h0 N test massin fuel ks r
        | some c =>
          match addCopy test massin fuel k q (fractions (info k).mix c) r.1 with
          | none => none
          | some s' => solidsLoop info h0 N test massin fuel ks (s', true)

/-- `checkForCoexistingSolids`, check_coexisting_solids.c 205-383. -/
def checkSolids (info : ℕ → Info) (h0 : (ℕ → ℝ) → ℕ → ℝ) (N : ℕ) (test : (Fin nlc → ℝ) → Bool) (massin : ℝ) (fuel : ℕ)
    (T P : ℝ) (s : Sys nc nlc ℝ) : Option (Sys nc nlc ℝ × Bool) :=
  if T ≤ 0 ∨ P < 0 then some (s, false)
  else solidsLoop info h0 N test massin fuel (List.range s.solids.length) (s, false)

/-! ### Liquids -/

/-- `checkForCoexistingLiquids`, check_coexisting_liquids.c 121-320: the first liquid found to unmix adds one liquid at
the end of the list, taken from the first liquid. -/
def checkLiquids (M : Mix) (h0 : (ℕ → ℝ) → ℕ → ℝ) (N : ℕ) (massin : ℝ) (T P : ℝ) (ls : List (Fin nlc → ℝ)) :
    List (Fin nlc → ℝ) × Bool :=
  match ls with
  | [] => (ls, false)
  | l0 :: rest =>
    if T ≤ 0 ∨ P < 0 then (ls, false)
    else match ls.findSome? fun l => split M (h0 (ext l)) N (ext l) with
      | none => (ls, false)
      | some r =>
        let x : Fin nlc → ℝ := fun i => M.frac r i * massin
        ((fun i => l0 i - x i) :: rest ++ [x], true)

end

end Magma.Engine.Unmix
