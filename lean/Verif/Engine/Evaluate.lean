import Verif.Engine.Select
import Verif.Thermo.MuO2

/-!
The potentials against which the phases that are absent are tested, and the table of affinities:
`evaluateSaturationState` (/repo/sources/evaluate_saturation.c 145-501).

Simplifications: `double` is the real numbers; `cur.g` of every table entry, the output of `actLiq`, of the `activity`
functions and of the estimators of a solution phase (`getAffinityAndComposition...`, models `Engine.Saturation` and
`Engine.Speciation`) are data of the state; `gsl_linalg_SV_decomp` is represented by its result and its contract
(`IsSvd`). The branch for the labels "orthopyroxene" and "clinopyroxene" after a failed estimate (lines 380-412) cannot
be reached in the builds that define RHYOLITE_ADJUSTMENTS (all but calibration) and is left out.
-/

namespace Magma.Engine.Evaluate

open Finset

noncomputable section

/-- An end member of a solution phase, or a pure phase: `cur.g` and `solToLiq` (silmin.h, struct _solids). -/
structure EndMember where
  g : ℝ
  toLiq : ℕ → ℝ

/-- A PHASE entry of `solids` with its end members (one if the phase is pure), and what the routine reads of the state:
`cylSolids[i]`, `nSolidCoexist[i]`, `solidComp[i][0]`, `solidComp[i+1+k][0]`, and the output of `activity(SECOND, ...)`
at that composition. -/
structure Phase where
  ends : List EndMember
  cyl : ℕ
  nCoexist : ℕ
  amount : ℝ
  comp : ℕ → ℝ
  mix : ℕ → ℝ
  /-- the labels "nepheline" and "kalsilite" -/
  retry : Bool
  /-- the estimator called for this phase: exclusion flags and `muMinusMu0` to affinity and independent variables;
  `none` if it reports a failure. For "feldspar", "orthopyroxene", "clinopyroxene" the report is ignored (lines
  353-369), so that it never is `none`. -/
  est : (ℕ → Bool) → (ℕ → ℝ) → Option (ℝ × (ℕ → ℝ))

/-- What the routine reads. -/
structure State where
  /-- number of liquid components and of oxides -/
  nlc : ℕ
  nc : ℕ
  /-- `liquid[i].cur.g`, `liquid[i].liqToOx` -/
  liqG : ℕ → ℝ
  liqToOx : ℕ → ℕ → ℝ
  /-- `liquidMass`, `liquidComp[0]`, `bulkComp` -/
  liquidMass : ℝ
  liquidComp : ℕ → ℝ
  bulk : ℕ → ℝ
  /-- output of `actLiq(SECOND, ...)` for `liquidComp[0]` -/
  liqMix : ℕ → ℝ
  T : ℝ
  /-- `fo2Path != FO2_NONE`, `fo2`, `oxygen.cur.g` -/
  buffered : Bool
  fo2 : ℝ
  oxygenG : ℝ
  /-- `calculationMode == MODE_pMELTS`; the other modes share a branch -/
  pMelts : Bool
  phases : List Phase
  /-- `incSolids[j]` by number of the phase, `incSolids[npc]` -/
  inc : ℕ → Bool
  incLiq : Bool
  /-- the estimator for the liquid (lines 476) -/
  estLiq : (ℕ → Bool) → (ℕ → ℝ) → Option (ℝ × (ℕ → ℝ))

/-! ### With liquid -/

/-- The potentials in the first liquid, evaluate_saturation.c 167-170. -/
def ownMu (s : State) (i : ℕ) : ℝ := if s.liquidComp i ≠ 0 then s.liqMix i + s.liqG i else s.liqMix i

/-- `muO2`, evaluate_saturation.c 183, 196. -/
def muO2 (s : State) : ℝ := Thermo.MuO2.R * s.T * s.fo2 * Real.log 10 + s.oxygenG

/-- `deltaG`, evaluate_saturation.c 186, 199. -/
def deltaG (s : State) : ℝ :=
  if s.pMelts then ownMu s 0 / 4 + ownMu s 3 - ownMu s 5 - muO2 s / 2 else ownMu s 0 + ownMu s 3 - ownMu s 5 - muO2 s / 2

/-- The potentials used when there is a liquid, evaluate_saturation.c 166-206. -/
def withLiquid (s : State) : ℕ → ℝ :=
  if s.buffered then Function.update (ownMu s) 3 (ownMu s 3 - deltaG s) else ownMu s

/-! ### Without liquid -/

/-- Potential and `solToLiq` of the end members of the coexisting solids, evaluate_saturation.c 223-273: all phases with
`nSolidCoexist`, the composition of the first copy, end members with zero amount left out. -/
def rowsOf (ph : Phase) : List (ℝ × (ℕ → ℝ)) :=
  if ph.nCoexist = 0 then []
  else match ph.ends with
    | [e] => [(e.g, e.toLiq)]
    | es => es.zipIdx.filterMap fun q => if ph.comp q.2 ≠ 0 then some (q.1.g + ph.mix q.2, q.1.toLiq) else none

/-- All rows of the system of equations. -/
def rows (s : State) : List (ℝ × (ℕ → ℝ)) := s.phases.flatMap rowsOf

/-- `nonZero`, evaluate_saturation.c 250, 261, 288: all oxides of the liquid component are in the bulk composition. -/
def Avail (s : State) (k : ℕ) : Prop := ∀ n < s.nc, s.bulk n = 0 → s.liqToOx k n = 0

open Classical in
/-- The columns of the system: the available liquid components. -/
def cols (s : State) : List ℕ := (List.range s.nlc).filter fun k => Avail s k

/-- `stoichMatrix`, evaluate_saturation.c 252, 263. -/
def mat (s : State) (j l : ℕ) : ℝ := ((rows s).getD j (0, 0)).2 ((cols s).getD l 0)

/-- `muAllSol`, evaluate_saturation.c 227, 236. -/
def rhs (s : State) (j : ℕ) : ℝ := ((rows s).getD j (0, 0)).1

/-- What `gsl_linalg_SV_decomp` returns: `U` in place of the matrix, `S`, `V`. -/
structure Svd where
  U : ℕ → ℕ → ℝ
  S : ℕ → ℝ
  V : ℕ → ℕ → ℝ

/-- Truncation, evaluate_saturation.c 284. -/
def trunc (d : Svd) (q : ℕ) : ℝ := if d.S q < 1 / 10 ^ 8 then 0 else d.S q

/-- `gsl_linalg_SV_solve`, evaluate_saturation.c 285: `x = V w`, `w = U^T b` over the singular values, zero where
the singular value is zero. -/
def svSolve (m n : ℕ) (d : Svd) (b : ℕ → ℝ) (k : ℕ) : ℝ :=
  ∑ q ∈ range n, d.V k q * (if trunc d q ≠ 0 then (∑ j ∈ range m, d.U j q * b j) / trunc d q else 0)

open Classical in
/-- The potentials used when there is no liquid, evaluate_saturation.c 277-297; `junk` is what the vector of unknowns
holds if the decomposition is refused because there are fewer rows than columns (the GSL error handler is off and the
return code is not looked at). -/
def noLiquid (s : State) (d : Svd) (junk : ℕ → ℝ) (i : ℕ) : ℝ :=
  if Avail s i then
    (if (rows s).length < (cols s).length then junk ((cols s).idxOf i)
      else svSolve (rows s).length (cols s).length d (rhs s) ((cols s).idxOf i))
  else 0

/-! ### Affinities -/

/-- `muLiq`, evaluate_saturation.c 164-303. -/
def muLiq (s : State) (d : Svd) (junk : ℕ → ℝ) : ℕ → ℝ :=
  if s.liquidMass ≠ 0 then withLiquid s else noLiquid s d junk

open Classical in
/-- The local `liquidComp`, evaluate_saturation.c 208, 291, 294: zero if the component is absent. -/
def present (s : State) (i : ℕ) : ℝ :=
  if s.liquidMass ≠ 0 then s.liquidComp i else if Avail s i then 1 else 0

/-- What the loop over the liquid components reads for an end member, evaluate_saturation.c 316-319, 334-337. -/
def needs (s : State) (mu : ℕ → ℝ) (e : EndMember) : List (ℝ × ℝ × ℝ) :=
  (List.range s.nlc).map fun l => (e.toLiq l, mu l, present s l)

/-- `zeroX[k]`, evaluate_saturation.c 333-341. -/
def excluded (s : State) (mu : ℕ → ℝ) (e : EndMember) : Bool :=
  (needs s mu e).any fun r => decide (r.1 ≠ 0) && decide (r.2.2 = 0)

/-- The end member `k` of a phase. -/
def endAt (ph : Phase) (k : ℕ) : EndMember := ph.ends.getD k ⟨0, 0⟩

/-- The call of the estimator and what is kept of it, evaluate_saturation.c 331-442: `muSol` and `zeroX` of the end
members (the loop of lines 332-344 is that of a pure phase); after a failure the same call is made again for nepheline
and kalsilite; after the last failure the entries are zero. Of the `na` entries after the affinity, `nr = na-1` are
written after a success (the last one keeps what it held and is not read: zero here). -/
def solnEntry (s : State) (mu : ℕ → ℝ) (ph : Phase) : ℝ × List ℝ :=
  let na := ph.ends.length
  let z := fun k => excluded s mu (endAt ph k)
  let m := fun k => pureAffinity (needs s mu (endAt ph k)) (endAt ph k).g
  let keep := fun r : ℝ × (ℕ → ℝ) => (r.1, (List.range na).map fun k => if k < na - 1 then r.2 k else 0)
  let zeros : ℝ × List ℝ := (0, (List.range na).map fun _ => 0)
  match ph.est z m with
  | some r => keep r
  | none => if ph.retry then (match ph.est z m with | some r => keep r | none => zeros) else zeros

/-- The entries of a phase for the loop of `evalTable`, evaluate_saturation.c 313-446. -/
def cand (s : State) (mu : ℕ → ℝ) (ph : Phase) : Cand ℝ :=
  { kind := match ph.ends with
      | [e] => .pure e.g (needs s mu e)
      | _ => .soln (solnEntry s mu ph).1 (solnEntry s mu ph).2
    cyl := ph.cyl, amount := ph.amount }

/-- `muSol[k]` for the liquid, evaluate_saturation.c 460-467. -/
def liqMinus (s : State) (mu : ℕ → ℝ) (k : ℕ) : ℝ := if present s k ≠ 0 then s.liqG k - mu k else 0

/-- `rLiq[nlc-1]`: the affinity of the liquid, evaluate_saturation.c 457-478. -/
def liqAffinity (s : State) (mu : ℕ → ℝ) : ℝ :=
  if s.liquidMass = 0 ∧ s.incLiq = true then
    match s.estLiq (fun k => decide (present s k = 0)) (liqMinus s mu) with
    | some r => r.1
    | none => 0
  else 0

/-- The candidates in table order. -/
def cands (s : State) (d : Svd) (junk : ℕ → ℝ) : List (Cand ℝ) := s.phases.map (cand s (muLiq s d junk))

/-- `rSol`, evaluate_saturation.c 308-450. -/
def table (s : State) (d : Svd) (junk : ℕ → ℝ) : List (Bool × ℝ) := evalTable s.inc 0 (cands s d junk)

/-- The returned flag, evaluate_saturation.c 305, 327, 444, 478, 501. -/
def flag (s : State) (d : Svd) (junk : ℕ → ℝ) : Bool :=
  hasSupersat (table s d junk) (liqAffinity s (muLiq s d junk))

end

end Magma.Engine.Evaluate
