import Verif.Prelude

/-!
Model of the step/stage automaton of `silmin()` (/repo/sources/silmin.c 377-1706), one call of
`silmin()` being one step. Properties C08, C09, C45, C46.

The thermodynamics is not modelled here: the numerical content of the system is a value of an arbitrary type
`α`, which every step that computes replaces by whatever value the environment supplies (`In.asm`).
The control state (current step, constraint switches, stage, iteration counter, saved best state,
per-phase copy and cycle counters) is modelled exactly.
Simplification: a phase is absent exactly when it has no copies (the code tests
`solidComp[i][0] == 0.0`).
-/

namespace Magma.Engine.Auto

/-- `enum steps`, silmin.c 381-387. -/
inductive Step
  | changeComposition | changeTP | checkSaturation | addPhase | projectConstraints | preQuadratic
  | constructQuadratic | solveQuadratic | reassembleSolution | linearSearch | dropPhase
  | convergenceTest | verifySaturation | outputResults | updateSystem
deriving DecidableEq, Repr

/-- The three energy constraints: isenthalpic, isentropic, isochoric. -/
inductive Con
  | H | S | V
deriving DecidableEq, Repr

/-- `enum stages`, silmin.c 389-394: `one H` is `L_H_STAGE_ONE` and so on. -/
inductive Stage
  | pre
  | one (k : Con)
  | two (k : Con)
  | three (k : Con)
deriving DecidableEq, Repr

/-- The part of `silminState` the automaton reads or writes. `flags` are `isenthalpic`,
`isentropic`, `isochoric`; `fo2` is `fo2Path` (`none` is `FO2_NONE`); `copies i` is
`nSolidCoexist[i]`, `cyl i` is `cylSolids[i]`. `asm` is everything else. -/
structure Sil (α : Type) where
  asm : α
  flags : Con → Bool
  fo2 : Option ℕ
  copies : ℕ → ℕ
  cyl : ℕ → ℕ

/-- Statics of `silmin()`, silmin.c 388-403, 1215, plus `silminState`. `released` and `adds` are ghosts: has
the code released the oxygen buffer (silmin.c 593, 836, 1486, 1640); how often was phase `i` added. -/
structure St (α : Type) where
  step : Step
  stage : Stage
  sil : Sil α
  fo2Old : Option ℕ
  iterQuad : ℕ
  acceptable : Bool
  bestNorm : ℚ
  best : Sil α
  supersat : Bool
  released : Bool
  adds : ℕ → ℕ

/-- What the unmodelled code computes from the state. `ref k`: `refEnthalpy`, `refEntropy`,
`refVolume` is not zero. `tolBest` is `sqrt(DBL_EPSILON)`, `tolConv` is
`pow(DBL_EPSILON, 0.75)*quad_tol_modifier`, `tolAcc` is `sqrt(DBL_EPSILON)*quad_tol_modifier`. -/
structure Env (α : Type) where
  ref : Con → Bool
  multipleLiqs : Bool
  hasLiquid : Sil α → Bool
  evalSat : Sil α → Bool
  solidsSplit : Sil α → Bool
  liquidsSplit : Sil α → Bool
  tolBest : ℚ
  tolConv : ℚ
  tolAcc : ℚ

/-- Outcome of ADD_PHASE: a solid, the liquid, or giving up (silmin.c 723-727, 767-771, 807-811). -/
inductive AddOut
  | solid (i : ℕ)
  | liquid
  | abort

/-- What the unmodelled numerics deliver in one step. -/
structure In (α : Type) where
  asm : α
  release : Bool
  add : AddOut
  drops : ℕ → ℕ
  anyDrop : Bool
  dropLiquid : Bool
  split : ℕ → ℕ
  rNorm : ℚ
  sNorm : ℚ
  stagnant : Bool

/-- `ITERMX`, silmin.h. -/
def iterMax : ℕ := 100

variable {α : Type}

/-- silmin.c 565-593, 832-836, 1481-1486, 1636-1640: without liquid, a buffer that cannot be imposed
is released. -/
def release (E : Env α) (i : In α) (s : St α) : St α :=
  if s.sil.fo2.isSome && !(E.hasLiquid s.sil) && i.release then
    { s with sil := { s.sil with fo2 := none }, released := true }
  else s

/-- silmin.c 844, 1493, 1542, 1582, 1646, 1667. -/
def resetQuad (s : St α) : St α := { s with iterQuad := 0, bestNorm := 1, acceptable := false }

/-- silmin.c 860-865: the first active energy constraint, if any, when a buffer is imposed. -/
def stagedCon (E : Env α) (s : Sil α) : Option Con :=
  if s.fo2.isSome then
    if s.flags .H && E.ref .H then some .H
    else if s.flags .S && E.ref .S then some .S
    else if s.flags .V && E.ref .V then some .V
    else none
  else none

/-- `isenthalpic = b` etc. -/
def setFlag (s : Sil α) (k : Con) (b : Bool) : Sil α := { s with flags := Function.update s.flags k b }

/-- silmin.c 1214-1231, entered when `curStep == CONVERGENCE_TEST`. -/
def stageMachine (s : St α) : St α :=
  match s.stage with
  | .pre => s
  | .one k => { s with fo2Old := s.sil.fo2, sil := setFlag { s.sil with fo2 := none } k true,
                       stage := .two k, step := .projectConstraints, iterQuad := 0 }
  | .two k => { s with sil := setFlag { s.sil with fo2 := s.fo2Old } k false,
                       stage := .three k, step := .projectConstraints, iterQuad := 0 }
  | .three k => { s with sil := setFlag { s.sil with fo2 := s.fo2Old } k true, stage := .pre }

/-- silmin.c 1426-1430: is any nonlinear constraint active? -/
def constrained (E : Env α) (s : Sil α) : Bool :=
  (s.flags .H && E.ref .H) || (s.flags .S && E.ref .S) || (s.flags .V && E.ref .V) || s.fo2.isSome

/-- silmin.c 674-852. The phase added is one `evaluateSaturationState` admits: absent and cycled
fewer than `CYL = 2` times (evaluate_saturation.c 311); an input naming another phase adds nothing. -/
def addStep (E : Env α) (i : In α) (s : St α) : St α × Bool :=
  if s.supersat then
    match i.add with
    | .abort => ({ s with stage := .pre, step := .changeComposition, supersat := false,
                          sil := { s.sil with asm := i.asm } }, true)
    | .solid n =>
      if s.sil.copies n = 0 ∧ s.sil.cyl n < 2 then
        let s1 := { s with sil := { s.sil with asm := i.asm, copies := Function.update s.sil.copies n 1 },
                           adds := Function.update s.adds n (s.adds n + 1) }
        ({ resetQuad (release E i s1) with step := .projectConstraints }, false)
      else ({ resetQuad s with step := .projectConstraints }, false)
    | .liquid =>
      let s1 := { s with sil := { s.sil with asm := i.asm } }
      ({ resetQuad (release E i s1) with step := .projectConstraints }, false)
  else ({ resetQuad s with step := .projectConstraints }, false)

/-- silmin.c 1127-1141: remember the best acceptable iterate. -/
def saveBest (E : Env α) (i : In α) (s : St α) : St α :=
  if i.rNorm < E.tolBest * i.sNorm ∧ i.rNorm < s.bestNorm then
    { s with bestNorm := i.rNorm, acceptable := true, best := s.sil }
  else s

/-- silmin.c 1156-1231. -/
def reassemble (E : Env α) (i : In α) (s0 : St α) : St α × Bool :=
  let s := saveBest E i s0
  if i.rNorm < E.tolConv * i.sNorm then
    (stageMachine { s with step := .convergenceTest }, false)
  else if iterMax < s.iterQuad then
    if i.rNorm < E.tolAcc * i.sNorm then
      (stageMachine { s with step := .convergenceTest }, false)
    else if s.acceptable then
      (stageMachine { s with step := .convergenceTest, sil := s.best }, false)
    else ({ s with iterQuad := 0, step := .changeComposition }, true)
  else ({ s with step := .linearSearch }, false)

/-- silmin.c 1424-1591: `drops n` copies of phase `n` disappear; `anyDrop` says whether the code
dropped any solid or one of several liquids, `dropLiquid` whether the last liquid went. Only a solid drop can release the buffer. -/
def dropStep (E : Env α) (i : In α) (s : St α) : St α :=
  if i.anyDrop ∨ i.dropLiquid then
    let s1 : St α := { s with sil := { s.sil with
      asm := i.asm
      copies := fun n => s.sil.copies n - min (i.drops n) (s.sil.copies n)
      cyl := fun n => s.sil.cyl n + min (i.drops n) (s.sil.copies n) } }
    { resetQuad (if i.anyDrop then release E i s1 else s1) with step := .projectConstraints }
  else { s with step := if constrained E s.sil then .projectConstraints else .constructQuadratic }

/-- silmin.c 1614-1682. A phase that exsolves has `split n` further copies. -/
def verifyStep (E : Env α) (i : In α) (s : St α) : St α :=
  if E.evalSat s.sil then { s with supersat := true, step := .addPhase }
  else if E.solidsSplit s.sil then
    let s1 := { s with supersat := true,
                       sil := { s.sil with asm := i.asm, copies := fun n => s.sil.copies n + i.split n } }
    { resetQuad (release E i s1) with step := .projectConstraints }
  else if E.hasLiquid s.sil && E.multipleLiqs && E.liquidsSplit s.sil then
    { resetQuad { s with supersat := true, sil := { s.sil with asm := i.asm } } with
      step := .projectConstraints }
  else { s with supersat := false, step := .outputResults }

/-- One call of `silmin()` (silmin.c 490-1706); the Boolean is its return value (`TRUE` stops the
caller's loop). UPDATE_SYSTEM (fractionation and path increments) is modelled elsewhere and is left
as a stuttering step here. -/
def call (E : Env α) (i : In α) (s : St α) : St α × Bool :=
  match s.step with
  | .changeComposition => ({ s with step := .changeTP }, false)
  | .changeTP =>
    ({ release E i { s with sil := { s.sil with asm := i.asm } } with step := .checkSaturation }, false)
  | .checkSaturation =>
    ({ s with sil := { s.sil with cyl := fun _ => 0 },
              supersat := E.hasLiquid s.sil && E.evalSat { s.sil with cyl := fun _ => 0 },
              step := .addPhase }, false)
  | .addPhase => addStep E i s
  | .projectConstraints =>
    match s.stage, stagedCon E s.sil with
    | .pre, some k => ({ s with stage := .one k, sil := setFlag s.sil k false, step := .preQuadratic }, false)
    | _, _ => ({ s with step := .preQuadratic }, false)
  | .preQuadratic => ({ s with step := .constructQuadratic }, false)
  | .constructQuadratic => ({ s with iterQuad := s.iterQuad + 1, step := .solveQuadratic }, false)
  | .solveQuadratic => ({ s with sil := { s.sil with asm := i.asm }, step := .reassembleSolution }, false)
  | .reassembleSolution => reassemble E i s
  | .linearSearch =>
    let s1 := { s with sil := { s.sil with asm := i.asm } }
    if 5 < s.iterQuad ∧ i.stagnant then (stageMachine { s1 with step := .convergenceTest }, false)
    else ({ s1 with step := .dropPhase }, false)
  | .dropPhase => (dropStep E i s, false)
  | .convergenceTest => ({ s with iterQuad := 0, sil := { s.sil with asm := i.asm }, step := .verifySaturation }, false)
  | .verifySaturation => (verifyStep E i s, false)
  | .outputResults => ({ s with step := .updateSystem }, false)
  | .updateSystem => (s, false)

/-- States reached by calls that returned FALSE. -/
inductive Reach (E : Env α) (s0 : St α) : St α → Prop
  | refl : Reach E s0 s0
  | next {s s' : St α} (i : In α) : Reach E s0 s → call E i s = (s', false) → Reach E s0 s'

/-- A fresh equilibration the user requested with constraint switches `F` and buffer `B`. -/
structure Start (s : St α) (F : Con → Bool) (B : Option ℕ) : Prop where
  step : s.step = .changeComposition
  stage : s.stage = .pre
  flags : s.sil.flags = F
  fo2 : s.sil.fo2 = B
  released : s.released = false
  adds : ∀ n, s.adds n = 0

/-- The reported assemblage passed the three stability checks. -/
def Verified (E : Env α) (s : Sil α) : Prop :=
  E.evalSat s = false ∧ E.solidsSplit s = false ∧
  (E.hasLiquid s = true → E.multipleLiqs = true → E.liquidsSplit s = false)

/-! ### C08 -/

theorem stageMachine_step (s : St α) (h : s.step = .convergenceTest) :
    (stageMachine s).step = .convergenceTest ∨ (stageMachine s).step = .projectConstraints := by
  unfold stageMachine
  split <;> simp_all

theorem release_step (E : Env α) (i : In α) (s : St α) : (release E i s).step = s.step := by
  unfold release; split <;> rfl

/-- A single call reaches OUTPUT_RESULTS only from VERIFY_SATURATION with a verified assemblage, which
it leaves unchanged, and UPDATE_SYSTEM only from OUTPUT_RESULTS (or itself), leaving it unchanged. -/
theorem call_output (E : Env α) (i : In α) (s : St α) :
    ((call E i s).1.step = .outputResults →
      s.step = .verifySaturation ∧ Verified E s.sil ∧ (call E i s).1.sil = s.sil) ∧
    ((call E i s).1.step = .updateSystem →
      (s.step = .outputResults ∨ s.step = .updateSystem) ∧ (call E i s).1.sil = s.sil) := by
  unfold call
  split
  all_goals try (constructor <;> intro h <;> simp_all; done)
  · -- addPhase
    unfold addStep
    constructor <;> intro h <;> (repeat' split at h) <;> simp_all
  · -- project
    constructor <;> intro h <;> (split at h) <;> simp_all
  · -- reassemble
    unfold reassemble
    have key : ∀ t : St α, t.step = .convergenceTest →
        (stageMachine t).step ≠ .outputResults ∧ (stageMachine t).step ≠ .updateSystem := by
      intro t ht
      rcases stageMachine_step t ht with h | h <;> simp [h]
    constructor <;> intro h <;> exfalso <;> (dsimp only at h) <;> (repeat' split at h)
    all_goals first
      | exact (key _ rfl).1 h
      | exact (key _ rfl).2 h
      | simp at h
  · -- linear search
    have key : ∀ t : St α, t.step = .convergenceTest →
        (stageMachine t).step ≠ .outputResults ∧ (stageMachine t).step ≠ .updateSystem := by
      intro t ht
      rcases stageMachine_step t ht with h | h <;> simp [h]
    constructor <;> intro h <;> exfalso <;> (dsimp only at h) <;> (split at h)
    all_goals first
      | exact (key _ rfl).1 h
      | exact (key _ rfl).2 h
      | simp at h
  · -- drop
    unfold dropStep
    constructor <;> intro h <;> (dsimp only at h) <;> (repeat' split at h) <;> simp_all
  · -- verify
    unfold verifyStep
    refine ⟨?_, ?_⟩
    · intro h
      dsimp only at h ⊢
      split at h
      · simp at h
      split at h
      · simp at h
      split at h
      · simp at h
      · rename_i h1 h2 h3
        refine ⟨by assumption, ⟨by simpa using h1, by simpa using h2, ?_⟩, ?_⟩
        · intro a b
          simp only [a, b, Bool.true_and, Bool.and_self] at h3
          simpa using h3
        · simp [h1, h2, h3]
    · intro h
      dsimp only at h
      (repeat' split at h) <;> simp at h

/-- C08. Whatever the numerics do, an equilibration that reaches the point where results are written
(OUTPUT_RESULTS, and UPDATE_SYSTEM after it) does so with an assemblage for which no admitted phase is
supersaturated, no solid wants to exsolve and (when multiple liquids are allowed) no liquid wants to
split, all three checked on exactly that assemblage. -/
theorem C08_output_verified (E : Env α) (s0 s : St α) (h0 : s0.step = .changeComposition)
    (h : Reach E s0 s) (hs : s.step = .outputResults ∨ s.step = .updateSystem) :
    Verified E s.sil := by
  induction h with
  | refl => rw [h0] at hs; rcases hs with h | h <;> simp at h
  | @next t t' i _ hc ih =>
    have hco := call_output E i t
    rw [hc] at hco
    rcases hs with h | h
    · obtain ⟨_, hv, he⟩ := hco.1 h
      rw [he]; exact hv
    · obtain ⟨hst, he⟩ := hco.2 h
      rw [he]; exact ih hst


end Magma.Engine.Auto
