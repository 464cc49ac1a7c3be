import Verif.Prelude
import Verif.Engine.Frac

/-!
Model of ADD_PHASE and DROP_PHASE, /repo/sources/silmin.c 676-852 and 1424-1591, and of
`addOrDropLiquid`, /repo/sources/silmin_support.c 2022-2122.

Simplifications: `double` is an ordered field; the table is a list of phases (as in `Engine.Frac`);
`testLiq`, the solids' `test` functions, the speciation `conLiq(FIRST|SEVENTH)` and the singular
value solver are arbitrary functions; memory management and printing are dropped.
-/

namespace Magma.Engine

/-- Table row used here: moles of oxides and of liquid components per mole (`solToOx`, `solToLiq`,
/repo/includes/silmin.h `Solids`). -/
structure SRow (nc nlc : ℕ) (K : Type) where
  solToOx : Fin nc → K
  solToLiq : Fin nlc → K

/-- A PHASE entry with its end-members (`[]` iff `na == 1`), the solution's feasibility test and its
in/out cycle counter (`cylSolids`). -/
structure SPhase (nc nlc : ℕ) (K : Type) where
  row : SRow nc nlc K
  ems : List (SRow nc nlc K)
  test : List K → Bool

/-- A phase with its coexisting copies and `cylSolids[i]`. -/
structure SState (nc nlc : ℕ) (K : Type) where
  ph : SPhase nc nlc K
  insts : List (Inst K)
  cyl : ℕ

/-- The assemblage: `bulkComp`, `liquidComp[0..nLiquidCoexist)`, solids. -/
structure Sys (nc nlc : ℕ) (K : Type) where
  bulk : Fin nc → K
  liquids : List (Fin nlc → K)
  solids : List (SState nc nlc K)

/-- `liquid[j].liqToOx`, `bulkSystem[i].oxToLiq`. -/
structure Tables (nc nlc : ℕ) (K : Type) where
  liqToOx : Fin nlc → Fin nc → K
  oxToLiq : Fin nc → Fin nlc → K

variable {nc nlc : ℕ} {K : Type} [Field K] [LinearOrder K]

/-- Moles of liquid components contained in a copy of a phase: the sums subtracted in silmin.c 708,
713, 743, 755 and added in 1446, 1460. -/
def liqOf (p : SPhase nc nlc K) (x : Inst K) (j : Fin nlc) : K :=
  if p.ems = [] then p.row.solToLiq j * x.tot
  else (List.zipWith (fun r c => r.solToLiq j * c) p.ems x.comps).sum

/-- silmin.c 741-753: the seed of `inmass` moles with end-member fractions `mSol`
(`convert(THIRD, FOURTH)` of the composition found by the saturation evaluation). -/
def seed (p : SPhase nc nlc K) (mSol : List K) (inmass : K) : Inst K :=
  if p.ems = [] then ⟨inmass, []⟩ else ⟨inmass, mSol.map fun m => m * inmass⟩

/-- silmin.c 704-732: try the seed on a copy of the first liquid; halve it until `testLiq` accepts,
give up below `10*DBL_EPSILON` (`lim`). `none` = fuel exhausted, `some none` = given up. -/
def seedLoop (test : (Fin nlc → K) → Bool) (lim : K) (l0 : Fin nlc → K) (p : SPhase nc nlc K)
    (mSol : List K) : ℕ → K → Option (Option K)
  | 0, _ => none
  | n + 1, inmass =>
    if test (fun j => l0 j - liqOf p (seed p mSol inmass) j) = true then some (some inmass)
    else if inmass * (1 / 2) < lim then some none
    else seedLoop test lim l0 p mSol n (inmass * (1 / 2))

/-- Replace the `k`-th element. -/
def setSolid (ss : List (SState nc nlc K)) (k : ℕ) (s : SState nc nlc K) : List (SState nc nlc K) :=
  ss.set k s

/-- Outcome of ADD_PHASE. -/
inductive AddOutcome (nc nlc : ℕ) (K : Type)
  | added (s : Sys nc nlc K)
  | aborted (s : Sys nc nlc K)
  | noFuel

/-- silmin.c 692-781 with liquid present: determine the seed, take it from the first liquid, one
copy of the phase appears. -/
def addSolidLiq (test : (Fin nlc → K) → Bool) (massin lim : K) (fuel k : ℕ) (mSol : List K)
    (s : Sys nc nlc K) : AddOutcome nc nlc K :=
  match s.solids[k]?, s.liquids with
  | some q, l0 :: ls =>
    match seedLoop test lim l0 q.ph mSol fuel massin with
    | none => .noFuel
    | some none => .aborted s
    | some (some inmass) =>
      let x := seed q.ph mSol inmass
      .added { s with
        liquids := (fun j => l0 j - liqOf q.ph x j) :: ls
        solids := setSolid s.solids k { q with insts := [x] } }
  | _, _ => .aborted s

/-- silmin.c 821-830, 1471-1480: with an fO2 buffer the liquid's oxides are re-speciated; the bulk
follows and the liquid is rebuilt from oxides. `f` is `conLiq(FIRST|SEVENTH, FIRST, ...)`. -/
def respeciate (tb : Tables nc nlc K) (f : (Fin nc → K) → Fin nc → K) (l : Fin nlc → K)
    (bulk : Fin nc → K) : (Fin nlc → K) × (Fin nc → K) :=
  let moles : Fin nc → K := fun i => ∑ j, l j * tb.liqToOx j i
  let moles' := f moles
  (fun j => ∑ i, moles' i * tb.oxToLiq i j, fun i => bulk i - moles i + moles' i)

/-- silmin.c 1434-1506 with liquid present, one phase. Each copy below `massout` is returned to the
first liquid; a pure phase has at most one copy (only solutions are split by
`checkForCoexistingSolids`), so for it the counter simply drops. The copies with non-zero moles are
moved up (1498-1504). -/
def dropCopies (p : SPhase nc nlc K) (massout : K) :
    List (Inst K) → (Fin nlc → K) → List (Inst K) × (Fin nlc → K) × ℕ
  | [], l => ([], l, 0)
  | x :: xs, l =>
    if x.tot < massout then
      let r := dropCopies p massout xs (fun j => l j + liqOf p x j)
      (⟨0, x.comps.map fun _ => 0⟩ :: r.1, r.2.1, r.2.2 + 1)
    else
      let r := dropCopies p massout xs l
      (x :: r.1, r.2.1, r.2.2)

/-- silmin.c 1496-1506: close the gaps. Nothing moves if nothing was dropped. -/
def compact (nDrop : ℕ) (xs : List (Inst K)) : List (Inst K) :=
  if 0 < nDrop then xs.filter fun x => decide (x.tot ≠ 0) else xs

/-- silmin.c 1433-1508, loop over phases with liquid present (no fO2 buffer; the buffered case is
composed with `respeciate`). -/
def dropSolids (massout : K) : List (SState nc nlc K) → (Fin nlc → K) →
    List (SState nc nlc K) × (Fin nlc → K)
  | [], l => ([], l)
  | q :: qs, l =>
    let r := dropCopies q.ph massout q.insts l
    let r' := dropSolids massout qs r.2.1
    ({ q with insts := compact r.2.2 r.1, cyl := q.cyl + r.2.2 } :: r'.1, r'.2)

/-- silmin.c 1424-1508: DROP_PHASE, solids part. -/
def dropSolidsSys (massout : K) (s : Sys nc nlc K) : Sys nc nlc K :=
  match s.liquids with
  | [] => s
  | l0 :: ls =>
    let r := dropSolids massout s.solids l0
    { s with liquids := r.2 :: ls, solids := r.1 }

/-- silmin.c 1516: grams in a liquid. -/
def liquidGrams (tb : Tables nc nlc K) (oxmw : Fin nc → K) (l : Fin nlc → K) : K :=
  ∑ i, ∑ j, l i * tb.liqToOx i j * oxmw j

/-- silmin.c 1538: closing the gap after liquid `nl` **adds** each later liquid to its predecessor
(`+=`); the additions run upwards in place, so entry `i-1` receives the old entry `i`. The last
entry is freed (1539-1541). -/
def shiftAdd (nl : ℕ) (ls : List (Fin nlc → K)) : List (Fin nlc → K) :=
  (List.range (ls.length - 1)).map fun i =>
    if nl ≤ i then fun j => ls.getD i 0 j + ls.getD (i + 1) 0 j else ls.getD i 0

/-- silmin.c 1530-1541: drop liquid `nl`: merge it into liquid 0 and zero it if `nl > 0`, then
close the gap. -/
def dropLiquid (nl : ℕ) (ls : List (Fin nlc → K)) : List (Fin nlc → K) :=
  let ls' := if 0 < nl then
      (ls.set 0 (fun j => ls.getD 0 0 j + ls.getD nl 0 j)).set nl 0
    else ls
  shiftAdd nl ls'

/-- silmin.c 1514-1544: the loop over liquids; `nl` increases by one each round whether or not one
was dropped and the bound `nLiquidCoexist` shrinks. `n` is the number of rounds left (fuel, at least
`nLiquidCoexist - nl` at every round). -/
def dropLiquidsLoop (tb : Tables nc nlc K) (oxmw : Fin nc → K) (massout : K) :
    ℕ → ℕ → List (Fin nlc → K) → List (Fin nlc → K)
  | 0, _, ls => ls
  | n + 1, nl, ls =>
    if nl < ls.length then
      if liquidGrams tb oxmw (ls.getD nl 0) < massout then
        dropLiquidsLoop tb oxmw massout n (nl + 1) (dropLiquid nl ls)
      else dropLiquidsLoop tb oxmw massout n (nl + 1) ls
    else ls

/-- silmin.c 1511-1544: only with multiple liquids allowed and more than one present. -/
def dropLiquids (tb : Tables nc nlc K) (oxmw : Fin nc → K) (massout : K) (multiple : Bool)
    (ls : List (Fin nlc → K)) : List (Fin nlc → K) :=
  if multiple = true ∧ 1 < ls.length then dropLiquidsLoop tb oxmw massout ls.length 0 ls else ls

/-! ### addOrDropLiquid -/

/-- silmin_support.c 2078-2098: correction of one present phase from the solver's `xs` (one entry
per end-member); the weights are the moles of the first copy (2051, 2056). Returns the new first
copy and the phase's verdict: a solution's feasibility is tested on the *old* end-member moles. -/
def correctCopy (p : SPhase nc nlc K) (xs : List K) (x : Inst K) : Inst K × Bool :=
  if p.ems = [] then
    let t := x.tot - x.tot * xs.headD 0
    (⟨t, x.comps⟩, decide (0 < t))
  else
    let ds := List.zipWith (fun c s => c * s) x.comps xs
    let t := x.tot - ds.sum
    (⟨t, List.zipWith (fun c d => c - d) x.comps ds⟩, decide (0 < t) && p.test x.comps)

/-- silmin_support.c 2101-2115: the undo adds the same products again. `old` is the copy whose moles
are the weights. -/
def uncorrectCopy (p : SPhase nc nlc K) (xs : List K) (old x : Inst K) : Inst K :=
  if p.ems = [] then ⟨x.tot + old.tot * xs.headD 0, x.comps⟩
  else
    let ds := List.zipWith (fun c s => c * s) old.comps xs
    ⟨x.tot + ds.sum, List.zipWith (fun c d => c + d) x.comps ds⟩

/-- silmin_support.c 2077-2099: apply the correction to the first copy of every present phase. -/
def correctAll : List (SState nc nlc K) → List (List K) → List (SState nc nlc K) × Bool
  | [], _ => ([], true)
  | q :: qs, xss =>
    match q.insts with
    | [] => let r := correctAll qs xss; (q :: r.1, r.2)
    | x :: rest =>
      let c := correctCopy q.ph (xss.headD []) x
      let r := correctAll qs xss.tail
      ({ q with insts := c.1 :: rest } :: r.1, c.2 && r.2)

/-- silmin_support.c 2101-2115. -/
def uncorrectAll : List (SState nc nlc K) → List (SState nc nlc K) → List (List K) →
    List (SState nc nlc K)
  | old :: olds, q :: qs, xss =>
    match old.insts, q.insts with
    | o :: _, x :: rest =>
      { q with insts := uncorrectCopy q.ph (xss.headD []) o x :: rest } ::
        uncorrectAll olds qs xss.tail
    | _, _ => q :: uncorrectAll olds qs xss
  | _, qs, _ => qs

/-- silmin_support.c 2022-2122. `solve` is the weighted singular-value solve: one list per present
phase. With no solid present the call fails at once (2033). -/
def addOrDropLiquid (solve : List (SState nc nlc K) → (Fin nc → K) → List (List K))
    (ss : List (SState nc nlc K)) (delta : Fin nc → K) : List (SState nc nlc K) × Bool :=
  if ss.all (fun q => q.insts.isEmpty) = true then (ss, false)
  else
    let xss := solve ss delta
    let r := correctAll ss xss
    if r.2 = true then r else (uncorrectAll ss r.1 xss, false)

/-- silmin.c 737-781 without liquid, pure phase: the seed appears and `addOrDropLiquid` is called but
its verdict is not used (746). (`spinodeTest` always succeeds in the shipped build,
check_coexisting_solids.c 166.) -/
def addPureSub (solve : List (SState nc nlc K) → (Fin nc → K) → List (List K)) (massin : K) (k : ℕ)
    (s : Sys nc nlc K) : AddOutcome nc nlc K :=
  match s.solids[k]? with
  | none => .aborted s
  | some q =>
    let x := seed q.ph [] massin
    let r := addOrDropLiquid solve s.solids (fun o => q.ph.row.solToOx o * x.tot)
    .added { s with solids := setSolid r.1 k { q with insts := [x] } }

/-- Oxides in a seed of a solution (silmin.c 757). -/
def seedOx (p : SPhase nc nlc K) (x : Inst K) (o : Fin nc) : K :=
  (List.zipWith (fun r c => r.solToOx o * c) p.ems x.comps).sum

/-- silmin.c 738-776 without liquid, solution phase: halve the seed until the solids can supply it;
`none` = fuel exhausted, `some none` = given up below `lim`. -/
def addSolnSubLoop (solve : List (SState nc nlc K) → (Fin nc → K) → List (List K)) (lim : K)
    (ss : List (SState nc nlc K)) (p : SPhase nc nlc K) (mSol : List K) :
    ℕ → K → Option (Option (K × List (SState nc nlc K)))
  | 0, _ => none
  | n + 1, inmass =>
    let r := addOrDropLiquid solve ss (seedOx p (seed p mSol inmass))
    if r.2 = true then some (some (inmass, r.1))
    else if inmass / 2 < lim then some none
    else addSolnSubLoop solve lim r.1 p mSol n (inmass / 2)

/-- silmin.c 737-781 without liquid, solution phase. -/
def addSolnSub (solve : List (SState nc nlc K) → (Fin nc → K) → List (List K)) (massin lim : K)
    (fuel k : ℕ) (mSol : List K) (s : Sys nc nlc K) : AddOutcome nc nlc K :=
  match s.solids[k]? with
  | none => .aborted s
  | some q =>
    match addSolnSubLoop solve lim s.solids q.ph mSol fuel massin with
    | none => .noFuel
    | some none => .aborted s
    | some (some (inmass, ss)) =>
      .added { s with solids := setSolid ss k { q with insts := [seed q.ph mSol inmass] } }

/-! ### Specification -/

/-- Moles of oxide `o` in one copy. -/
def soxide (p : SPhase nc nlc K) (o : Fin nc) (x : Inst K) : K :=
  if p.ems = [] then x.tot * p.row.solToOx o
  else (List.zipWith (fun r c => c * r.solToOx o) p.ems x.comps).sum

/-- Moles of oxide `o` in the solids. -/
def solidsOxide (ss : List (SState nc nlc K)) (o : Fin nc) : K :=
  (ss.map fun q => (q.insts.map (soxide q.ph o)).sum).sum

/-- Moles of oxide `o` in the liquids. -/
def liquidsOxide (tb : Tables nc nlc K) (ls : List (Fin nlc → K)) (o : Fin nc) : K :=
  (ls.map fun l => ∑ j, l j * tb.liqToOx j o).sum

/-- Moles of oxide `o` in the whole assemblage. -/
def total (tb : Tables nc nlc K) (s : Sys nc nlc K) (o : Fin nc) : K :=
  liquidsOxide tb s.liquids o + solidsOxide s.solids o

/-- The liquid components a row is worth contain its oxides. -/
def RowOk (tb : Tables nc nlc K) (r : SRow nc nlc K) : Prop :=
  ∀ o, r.solToOx o = ∑ j, r.solToLiq j * tb.liqToOx j o

/-- Consistent stoichiometry of a phase. -/
def PhaseOk (tb : Tables nc nlc K) (p : SPhase nc nlc K) : Prop :=
  (p.ems = [] → RowOk tb p.row) ∧ ∀ r ∈ p.ems, RowOk tb r

/-- Copies have one entry per end-member. -/
def CopiesOk (q : SState nc nlc K) : Prop := ∀ x ∈ q.insts, x.comps.length = q.ph.ems.length

end Magma.Engine

namespace Magma.Engine

variable {nc nlc : ℕ} {K : Type} [Field K] [LinearOrder K]

/-! ### Disappearance and nucleation of phases below the solidus -/

/-- silmin.c 1457-1468 without liquid, one copy (the first) of a solution disappears: it is zeroed,
`addOrDropLiquid` is called with the oxides it held while the counter is one lower - so the phase
still counts as present, with the zeroed copy as its first, iff other copies exist - and the verdict is ignored.
Afterwards (1497-1506) the zeroed copy is removed. `k` is the phase, `x :: rest` its copies. -/
def dropFirstSub (solve : List (SState nc nlc K) → (Fin nc → K) → List (List K)) (k : ℕ)
    (q : SState nc nlc K) (x : Inst K) (rest : List (Inst K)) (ss : List (SState nc nlc K)) :
    List (SState nc nlc K) × Bool :=
  let zeroed : Inst K := ⟨0, x.comps.map fun _ => 0⟩
  let during := if rest = [] then [] else zeroed :: rest
  let r := addOrDropLiquid solve (ss.set k { q with insts := during })
    (fun o => - (List.zipWith (fun r c => r.solToOx o * c) q.ph.ems x.comps).sum)
  let after := match r.1[k]? with
    | some q' => r.1.set k { q' with insts := compact 1 q'.insts, cyl := q'.cyl + 1 }
    | none => r.1
  (after, r.2)

/-- silmin.c 1561-1584: the last liquid (mass below MASSOUT) disappears: its oxides are handed to
`addOrDropLiquid`, the verdict (`success`) is not used. -/
def dropLastLiquid (tb : Tables nc nlc K)
    (solve : List (SState nc nlc K) → (Fin nc → K) → List (List K)) (l0 : Fin nlc → K)
    (ss : List (SState nc nlc K)) : List (SState nc nlc K) × Bool :=
  addOrDropLiquid solve ss (fun o => - ∑ i, tb.liqToOx i o * l0 i)

/-- Result of the attempt to nucleate liquid: the liquid left in `liquidComp[0]`, `liquidMass`, the
solids, and whether the attempt was accepted (otherwise abandoned, status SILMIN_ADD_LIQUID_3). -/
structure LiqAttempt (nc nlc : ℕ) (K : Type) where
  liq : Fin nlc → K
  liquidMass : K
  solids : List (SState nc nlc K)
  ok : Bool

/-- silmin.c 792-815: write a seed of liquid, ask the solids to supply it, halve on refusal, abandon
below `lim`. `none` = fuel exhausted. -/
def addLiquidSub (tb : Tables nc nlc K)
    (solve : List (SState nc nlc K) → (Fin nc → K) → List (List K)) (lim : K) (mLiq : Fin nlc → K) :
    ℕ → K → List (SState nc nlc K) → Option (LiqAttempt nc nlc K)
  | 0, _, _ => none
  | n + 1, inmass, ss =>
    let l : Fin nlc → K := fun i => mLiq i * inmass
    let r := addOrDropLiquid solve ss (fun o => ∑ i, tb.liqToOx i o * l i)
    if r.2 = true then some ⟨l, inmass, r.1, true⟩
    else if inmass / 2 < lim then some ⟨l, inmass, r.1, false⟩
    else addLiquidSub tb solve lim mLiq n (inmass / 2) r.1

/-- silmin.c 738-776 again, now also returning the moles left in `solidComp[index]` when the
nucleation of a solution below the solidus is abandoned (SILMIN_ADD_LIQUID_2): the last seed tried. -/
def abandonedSeed (solve : List (SState nc nlc K) → (Fin nc → K) → List (List K)) (lim : K)
    (ss : List (SState nc nlc K)) (p : SPhase nc nlc K) (mSol : List K) : ℕ → K → Option (Inst K)
  | 0, _ => none
  | n + 1, inmass =>
    let r := addOrDropLiquid solve ss (seedOx p (seed p mSol inmass))
    if r.2 = true then none
    else if inmass / 2 < lim then some (seed p mSol inmass)
    else abandonedSeed solve lim r.1 p mSol n (inmass / 2)

end Magma.Engine
