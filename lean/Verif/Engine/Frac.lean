import Verif.Prelude

/-!
Model of fractionation in `UPDATE_SYSTEM`, /repo/sources/silmin.c lines 1718-1975
(the batch copy in /repo/sources/interface.c lines 2185-2400 is the same text).

Simplifications, stated once:
* C `double` is an arbitrary linearly ordered field `K`.
* The flat table `solids[0..npc)` with `type == PHASE` rows followed by their `na` component rows is
  modelled as a list of phases, each with its own row and the list of its component rows
  (`ems = []` models `na == 1`).
* `solidComp[i][ns]` (total) and `solidComp[i+1+j][ns]` (end-members) are an `Inst`;
  `fracSComp` likewise.
* The mixing-property functions (`convert` then `hmix`/`smix`/`vmix` at the current T, P) are
  arbitrary functions of the mole vector `m`.
-/

namespace Magma.Engine

/-- A row of the table `solids` (/repo/includes/silmin.h `Solids`, used in silmin.c 1755-1786):
moles of each oxide per mole (`solToOx`), of O2 (`oxygen.solToOx`), molecular weight and the current
molar enthalpy, entropy, volume (`cur.h`, `cur.s`, `cur.v`). -/
structure Row (nc : ℕ) (K : Type) where
  label : String
  solToOx : Fin nc → K
  oxy : K
  mw : K
  h : K
  s : K
  v : K

/-- A PHASE entry: its own row, its component rows (`[]` when `na == 1`) and the molar mixing
properties as functions of the moles handed to `convert` (silmin.c 1790-1808). -/
structure Phase (nc : ℕ) (K : Type) where
  row : Row nc K
  ems : List (Row nc K)
  hmix : List K → K
  smix : List K → K
  vmix : List K → K

/-- One coexisting copy of a phase: `solidComp[i][ns]` and `solidComp[i+1+j][ns]`. -/
structure Inst (K : Type) where
  tot : K
  comps : List K
deriving DecidableEq

/-- Phase with its copies in the system and its copies in the fractionated reservoir
(`nSolidCoexist`, `solidComp`, `nFracCoexist`, `fracSComp`). -/
structure PhaseState (nc : ℕ) (K : Type) where
  ph : Phase nc K
  insts : List (Inst K)
  frac : List (Inst K)

/-- The user switches read by the step (silmin.c 1726, 1747-1752, 1757, 1762-1766). -/
structure Flags where
  fractionateSol : Bool
  fractionateFlu : Bool
  haveWater : Bool
  buffered : Bool
  isenthalpic : Bool
  isentropic : Bool
  isochoric : Bool

/-- The scalar accumulators of `SilminState` updated by fractionation. -/
structure Acc (nc : ℕ) (K : Type) where
  bulk : Fin nc → K
  oxygen : K
  fracMass : K
  refH : K
  refS : K
  refV : K

variable {nc : ℕ} {K : Type} [Field K] [LinearOrder K]

/-- silmin.c 1762-1767 etc.: `if (flag && ref != 0.0) ref -= amount`. -/
def guardSub (flag : Bool) (ref amount : K) : K :=
  if flag = true ∧ ref ≠ 0 then ref - amount else ref

/-- silmin.c 1729-1746: make room in the reservoir for every coexisting copy, new room is zero. -/
def growFrac (na ns : ℕ) (frac : List (Inst K)) : List (Inst K) :=
  if frac.length < ns then
    frac ++ List.replicate (ns - frac.length) ⟨0, List.replicate na 0⟩
  else frac

/-- silmin.c 1749-1752: is this phase subject to fractionation under the switches?
`water` is the fluid of the versions without CO2, `fluid` of the others. -/
def selected (fl : Flags) (label : String) : Bool :=
  let fluidName := if fl.haveWater then "water" else "fluid"
  !((fl.fractionateSol && !fl.fractionateFlu && label == fluidName) ||
    (!fl.fractionateSol && fl.fractionateFlu && label != fluidName))

/-- silmin.c 1756-1768: remove `m` moles of a row from the system's bulk totals. -/
def removeRow (fl : Flags) (r : Row nc K) (m : K) (a : Acc nc K) : Acc nc K where
  bulk := fun o => a.bulk o - r.solToOx o * m
  oxygen := if fl.buffered then a.oxygen - r.oxy * m else a.oxygen
  fracMass := a.fracMass + m * r.mw
  refH := guardSub fl.isenthalpic a.refH (m * r.h)
  refS := guardSub fl.isentropic a.refS (m * r.s)
  refV := guardSub fl.isochoric a.refV (m * r.v)

/-- silmin.c 1773-1787: the loop over end-members of a solution; `tot` is `solidComp[i][ns]`
before it is reset. Returns accumulators, new end-member moles, new reservoir moles and the removed
moles `m[]`. -/
def fracComps (fl : Flags) (massin tot : K) :
    List (Row nc K) → List K → List K → Acc nc K → Acc nc K × List K × List K × List K
  | r :: rs, c :: cs, f :: fs, a =>
    let moleF := c / tot
    let m := c - massin * moleF
    let res := fracComps fl massin tot rs cs fs (removeRow fl r m a)
    (res.1, massin * moleF :: res.2.1, (f + m) :: res.2.2.1, m :: res.2.2.2)
  | _, cs, fs, a => (a, cs, fs, [])

/-- silmin.c 1754-1810: fractionate one copy of a phase. -/
def fracInst (fl : Flags) (massin : K) (p : Phase nc K) (x f : Inst K) (a : Acc nc K) :
    Acc nc K × Inst K × Inst K :=
  if x.tot < massin then (a, x, f)
  else if p.ems = [] then
    (removeRow fl p.row (x.tot - massin) a, ⟨massin, x.comps⟩, ⟨f.tot + (x.tot - massin), f.comps⟩)
  else
    let res := fracComps fl massin x.tot p.ems x.comps f.comps a
    let m := res.2.2.2
    let total := m.sum
    let a' := res.1
    ({ a' with
        refH := guardSub fl.isenthalpic a'.refH (total * p.hmix m)
        refS := guardSub fl.isentropic a'.refS (total * p.smix m)
        refV := guardSub fl.isochoric a'.refV (total * p.vmix m) },
      ⟨massin, res.2.1⟩, ⟨f.tot + (x.tot - massin), res.2.2.1⟩)

/-- silmin.c 1753-1811: loop over the coexisting copies. The reservoir has room for each of them
(`growFrac`), so the middle case is not reached from `fracPhase`. -/
def fracInsts (fl : Flags) (massin : K) (p : Phase nc K) :
    List (Inst K) → List (Inst K) → Acc nc K → Acc nc K × List (Inst K) × List (Inst K)
  | [], fs, a => (a, [], fs)
  | xs, [], a => (a, xs, [])
  | x :: xs, f :: fs, a =>
    let r := fracInst fl massin p x f a
    let rest := fracInsts fl massin p xs fs r.1
    (rest.1, r.2.1 :: rest.2.1, r.2.2 :: rest.2.2)

/-- silmin.c 1748-1812, body for one phase (after the room-making loop 1729-1746). -/
def fracPhase (fl : Flags) (massin : K) (ps : PhaseState nc K) (a : Acc nc K) :
    Acc nc K × PhaseState nc K :=
  let fr := growFrac ps.ph.ems.length ps.insts.length ps.frac
  if selected fl ps.ph.row.label then
    let r := fracInsts fl massin ps.ph ps.insts fr a
    (r.1, { ps with insts := r.2.1, frac := r.2.2 })
  else (a, { ps with frac := fr })

/-- silmin.c 1748-1812: the loop over phases. -/
def fracPhases (fl : Flags) (massin : K) :
    List (PhaseState nc K) → Acc nc K → Acc nc K × List (PhaseState nc K)
  | [], a => (a, [])
  | ps :: rest, a =>
    let r := fracPhase fl massin ps a
    let r' := fracPhases fl massin rest r.1
    (r'.1, r.2 :: r'.2)

/-- silmin.c 1726-1812: solid/fluid fractionation is done only when asked for and when there is
liquid (`hasLiquid`). The trace-oxide clean-up of lines 1818-1861 is `cleanTrace` below. -/
def fractionateSolids (fl : Flags) (massin : K) (hasLiquid : Bool)
    (ps : List (PhaseState nc K)) (a : Acc nc K) : Acc nc K × List (PhaseState nc K) :=
  if (fl.fractionateSol || fl.fractionateFlu) && hasLiquid then fracPhases fl massin ps a
  else (a, ps)

/-! ### Specification -/

/-- Moles of oxide `o` in one copy of a phase. -/
def oxideOf (p : Phase nc K) (o : Fin nc) (x : Inst K) : K :=
  if p.ems = [] then x.tot * p.row.solToOx o
  else (List.zipWith (fun r c => c * r.solToOx o) p.ems x.comps).sum

/-- Moles of oxide `o` in all the solids of the system. -/
def oxideSystem (ps : List (PhaseState nc K)) (o : Fin nc) : K :=
  (ps.map fun q => (q.insts.map (oxideOf q.ph o)).sum).sum

/-- Moles of oxide `o` in the fractionated reservoir. -/
def oxideFrac (ps : List (PhaseState nc K)) (o : Fin nc) : K :=
  (ps.map fun q => (q.frac.map (oxideOf q.ph o)).sum).sum

/-- Mole vectors have one entry per end-member. -/
def WellFormed (q : PhaseState nc K) : Prop :=
  (∀ x ∈ q.insts, x.comps.length = q.ph.ems.length) ∧
  (∀ x ∈ q.frac, x.comps.length = q.ph.ems.length)

/-- What fractionation must do to one copy: leave `massin` moles of it, same proportions. -/
def Reduced (massin : K) (p : Phase nc K) (x y : Inst K) : Prop :=
  y.tot = massin ∧ (p.ems ≠ [] → y.comps = x.comps.map fun c => massin * (c / x.tot))

end Magma.Engine
