import Verif.Engine.AutomatonProps
import Mathlib.Tactic.Linarith

/-!
More about the automaton of `Engine/Automaton`: when the buffer is released (C09), when constraints are
re-imposed and how long a minimisation can last (C57).
-/

namespace Magma.Engine.Auto

variable {α : Type}

/-! ### C09 -/

theorem release_released (E : Env α) (i : In α) (s : St α) (h : s.released = false)
    (h' : (release E i s).released = true) :
    E.hasLiquid s.sil = false ∧ (release E i s).sil = { s.sil with fo2 := none } := by
  unfold release at h' ⊢
  by_cases hc : (s.sil.fo2.isSome && !(E.hasLiquid s.sil) && i.release) = true
  · rw [if_pos hc]
    refine ⟨?_, rfl⟩
    simp only [Bool.and_eq_true, Bool.not_eq_true'] at hc
    exact hc.1.2
  · rw [if_neg hc, h] at h'
    simp at h'

/-- The liquid test does not look at the buffer (it reads the liquid mass, silmin.c 471). -/
def LiquidBlind (E : Env α) : Prop := ∀ (s : Sil α) (b : Option ℕ), E.hasLiquid { s with fo2 := b } = E.hasLiquid s

theorem release_noLiquid (E : Env α) (hE : LiquidBlind E) (i : In α) (s : St α) (h : s.released = false)
    (h' : (release E i s).released = true) : E.hasLiquid (release E i s).sil = false := by
  obtain ⟨a, b⟩ := release_released E i s h h'
  rw [b, hE, a]

theorem stageMachine_released (s : St α) : (stageMachine s).released = s.released := by
  unfold stageMachine; split <;> rfl

/-- C09. The only way the code itself gives up the user's oxygen buffer is in a system without liquid: a call
that releases it ends with an assemblage that has no liquid, and does not return TRUE. -/
theorem C09_release_needs_no_liquid (E : Env α) (hE : LiquidBlind E) (i : In α) (s : St α)
    (h : s.released = false) (h' : (call E i s).1.released = true) :
    E.hasLiquid (call E i s).1.sil = false ∧ (call E i s).2 = false := by
  unfold call at h' ⊢
  split at h'
  case h_1 => simp [h] at h'
  case h_2 => exact ⟨release_noLiquid E hE i _ h h', rfl⟩
  case h_3 => simp [h] at h'
  case h_4 =>
    unfold addStep at h' ⊢
    cases hs : s.supersat with
    | false => simp only [hs, Bool.false_eq_true, if_false, resetQuad, h] at h'
    | true =>
      simp only [hs, if_true] at h' ⊢
      cases ha : i.add with
      | abort => simp only [ha, h] at h'; simp at h'
      | solid n =>
        simp only [ha] at h' ⊢
        by_cases hc : s.sil.copies n = 0 ∧ s.sil.cyl n < 2
        · rw [if_pos hc] at h' ⊢
          exact ⟨release_noLiquid E hE i _ h h', rfl⟩
        · rw [if_neg hc] at h'
          simp only [resetQuad, h] at h'; simp at h'
      | liquid =>
        simp only [ha] at h' ⊢
        exact ⟨release_noLiquid E hE i _ h h', trivial⟩
  case h_5 => split at h' <;> simp [h] at h'
  case h_6 => simp [h] at h'
  case h_7 => simp [h] at h'
  case h_8 => simp [h] at h'
  case h_9 =>
    have hb : (saveBest E i s).released = false := by unfold saveBest; split <;> exact h
    exfalso
    unfold reassemble at h'
    dsimp only at h'
    repeat' split at h'
    all_goals first
      | (rw [stageMachine_released] at h'; rw [hb] at h'; simp at h')
      | (dsimp only at h'; rw [hb] at h'; simp at h')
  case h_10 =>
    exfalso
    dsimp only at h'
    split at h'
    · rw [stageMachine_released] at h'; dsimp only at h'; rw [h] at h'; simp at h'
    · dsimp only at h'; rw [h] at h'; simp at h'
  case h_11 =>
    dsimp only at h' ⊢
    unfold dropStep at h' ⊢
    by_cases hc : i.anyDrop = true ∨ i.dropLiquid = true
    · rw [if_pos hc] at h' ⊢
      dsimp only [resetQuad] at h' ⊢
      by_cases hd : i.anyDrop = true
      · rw [if_pos hd] at h' ⊢
        exact ⟨release_noLiquid E hE i _ h h', rfl⟩
      · rw [if_neg hd] at h'
        dsimp only at h'; rw [h] at h'; simp at h'
    · rw [if_neg hc] at h'
      dsimp only at h'; rw [h] at h'; simp at h'
  case h_12 => simp [h] at h'
  case h_13 =>
    dsimp only at h' ⊢
    unfold verifyStep at h' ⊢
    by_cases h1 : E.evalSat s.sil = true
    · rw [if_pos h1] at h'; dsimp only at h'; rw [h] at h'; simp at h'
    rw [if_neg h1] at h' ⊢
    by_cases h2 : E.solidsSplit s.sil = true
    · rw [if_pos h2] at h' ⊢
      exact ⟨release_noLiquid E hE i _ h h', rfl⟩
    rw [if_neg h2] at h'
    exfalso
    split at h'
    · dsimp only [resetQuad] at h'; rw [h] at h'; simp at h'
    · dsimp only at h'; rw [h] at h'; simp at h'
  case h_14 => simp [h] at h'
  case h_15 => simp [h] at h'

/-! ### C57 -/

/-- C57. Every quadratic model the code builds while an energy constraint or an oxygen buffer is active is
built right after the constraints were re-imposed; only an unconstrained minimisation goes straight from
one line search to the next quadratic. -/
theorem C57_constraints_reimposed (E : Env α) (i : In α) (s : St α)
    (h : (call E i s).1.step = .constructQuadratic) :
    s.step = .preQuadratic ∨
      s.step = .dropPhase ∧ (call E i s).1.sil = s.sil ∧
        (∀ k, s.sil.flags k = true → E.ref k = false) ∧ s.sil.fo2 = none := by
  unfold call at h ⊢
  split at h
  case h_6 => left; assumption
  case h_11 =>
    right
    dsimp only at h ⊢
    unfold dropStep at h ⊢
    by_cases hc : i.anyDrop = true ∨ i.dropLiquid = true
    · rw [if_pos hc] at h; simp at h
    · rw [if_neg hc] at h ⊢
      dsimp only at h ⊢
      by_cases hk : constrained E s.sil = true
      · rw [if_pos hk] at h; simp at h
      · refine ⟨by assumption, rfl, ?_, ?_⟩
        · intro k hf
          simp only [constrained, Bool.or_eq_true, Bool.and_eq_true, not_or, not_and,
            Bool.not_eq_true] at hk
          cases k
          · exact hk.1.1.1 hf
          · exact hk.1.1.2 hf
          · exact hk.1.2 hf
        · simp only [constrained, Bool.or_eq_true, not_or] at hk
          simpa using hk.2
  case h_4 =>
    exfalso
    unfold addStep at h
    repeat' split at h
    all_goals simp at h
  case h_5 => exfalso; split at h <;> simp at h
  case h_9 =>
    exfalso
    have key : ∀ t : St α, t.step = .convergenceTest → (stageMachine t).step ≠ .constructQuadratic := by
      intro t ht
      rcases stageMachine_step t ht with h | h <;> simp [h]
    unfold reassemble at h
    dsimp only at h
    repeat' split at h
    all_goals first
      | exact key _ rfl h
      | simp at h
  case h_10 =>
    exfalso
    have key : ∀ t : St α, t.step = .convergenceTest → (stageMachine t).step ≠ .constructQuadratic := by
      intro t ht
      rcases stageMachine_step t ht with h | h <;> simp [h]
    dsimp only at h
    split at h
    · exact key _ rfl h
    · simp at h
  case h_13 =>
    exfalso
    dsimp only at h
    unfold verifyStep at h
    repeat' split at h
    all_goals simp at h
  case h_15 => simp_all
  all_goals simp at h

/-- The steps of the minimisation loop. -/
def Step.inLoop : Step → Bool
  | .projectConstraints | .preQuadratic | .constructQuadratic | .solveQuadratic
  | .reassembleSolution | .linearSearch | .dropPhase => true
  | _ => false

/-- Position in the loop, counted backwards. -/
def Step.pos : Step → ℕ
  | .projectConstraints => 2
  | .preQuadratic => 1
  | .constructQuadratic => 0
  | .solveQuadratic => 6
  | .reassembleSolution => 5
  | .linearSearch => 4
  | .dropPhase => 3
  | _ => 0

/-- Stages still to come. -/
def Stage.left : Stage → ℕ
  | .pre => 3
  | .one _ => 2
  | .two _ => 1
  | .three _ => 0

/-- Bound on the calls left. -/
def bound (s : St α) : ℕ := s.stage.left * 721 + (102 - s.iterQuad) * 7 + s.step.pos

/-- Iterations stay within the limit, with room for one at CONSTRUCT_QUADRATIC. -/
def IterOk (s : St α) : Prop :=
  s.iterQuad ≤ 102 ∧ (s.step = .projectConstraints ∨ s.step = .preQuadratic ∨ s.step = .constructQuadratic ∨
    s.step = .linearSearch ∨ s.step = .dropPhase → s.iterQuad ≤ 100)

theorem stageMachine_pre_out (t : St α) (ht : t.step = .convergenceTest) :
    (stageMachine t).step = .convergenceTest ∨
    ((stageMachine t).step = .projectConstraints ∧ (stageMachine t).iterQuad = 0 ∧
      (stageMachine t).stage.left + 1 = t.stage.left ∧ (stageMachine t).stage ≠ .pre) := by
  unfold stageMachine
  cases h : t.stage with
  | pre => left; exact ht
  | one k => right; exact ⟨rfl, rfl, rfl, by simp⟩
  | two k => right; exact ⟨rfl, rfl, rfl, by simp⟩
  | three k => left; exact ht

/-- One call inside the loop that drops no phase either leaves the loop or lowers the bound. -/
theorem call_bound (E : Env α) (i : In α) (s : St α) (hl : s.step.inLoop = true) (ho : IterOk s)
    (hd : i.anyDrop = false) (hd' : i.dropLiquid = false) :
    (call E i s).2 = true ∨ (call E i s).1.step = .convergenceTest ∨
    ((call E i s).1.step.inLoop = true ∧ IterOk (call E i s).1 ∧ bound (call E i s).1 < bound s) := by
  obtain ⟨h1, h2⟩ := ho
  have sm : ∀ t : St α, t.step = .convergenceTest → t.stage = s.stage → s.step.pos + (102 - s.iterQuad) * 7 ≥ 0 →
      (stageMachine t).step = .convergenceTest ∨
      ((stageMachine t).step.inLoop = true ∧ IterOk (stageMachine t) ∧ bound (stageMachine t) < bound s) := by
    intro t ht hst _
    rcases stageMachine_pre_out t ht with h | ⟨a, b, c, _⟩
    · exact Or.inl h
    · right
      refine ⟨by rw [a]; rfl, ⟨by omega, fun _ => by omega⟩, ?_⟩
      unfold bound
      rw [a, b, ← hst, ← c]
      simp only [Step.pos]
      omega
  cases hs : s.step <;> rw [hs] at hl <;> simp only [Step.inLoop, Bool.false_eq_true] at hl
  case projectConstraints =>
    right; right
    have hq := h2 (by simp [hs])
    unfold call
    rw [hs]
    dsimp only
    split
    · rename_i k hst hk
      refine ⟨rfl, ⟨h1, fun _ => hq⟩, ?_⟩
      simp only [bound, hs, hst, Stage.left, Step.pos]; omega
    · refine ⟨rfl, ⟨h1, fun _ => hq⟩, ?_⟩
      simp only [bound, hs, Step.pos]; omega
  case preQuadratic =>
    right; right
    have hq := h2 (by simp [hs])
    unfold call
    rw [hs]
    refine ⟨rfl, ⟨h1, fun _ => hq⟩, ?_⟩
    simp only [bound, hs, Step.pos]; omega
  case constructQuadratic =>
    right; right
    have hq := h2 (by simp [hs])
    unfold call
    rw [hs]
    refine ⟨rfl, ⟨by dsimp only; omega, fun h => by simp at h⟩, ?_⟩
    simp only [bound, hs, Step.pos]; omega
  case solveQuadratic =>
    right; right
    unfold call
    rw [hs]
    refine ⟨rfl, ⟨h1, fun h => by simp at h⟩, ?_⟩
    simp only [bound, hs, Step.pos]; omega
  case reassembleSolution =>
    have hb : (saveBest E i s).stage = s.stage ∧ (saveBest E i s).iterQuad = s.iterQuad := by
      unfold saveBest; split <;> exact ⟨rfl, rfl⟩
    unfold call
    rw [hs]
    dsimp only
    unfold reassemble
    dsimp only
    by_cases c1 : i.rNorm < E.tolConv * i.sNorm
    · rw [if_pos c1]
      exact Or.inr (sm _ rfl hb.1 (Nat.zero_le _))
    rw [if_neg c1]
    by_cases c2 : iterMax < (saveBest E i s).iterQuad
    · rw [if_pos c2]
      by_cases c3 : i.rNorm < E.tolAcc * i.sNorm
      · rw [if_pos c3]
        exact Or.inr (sm _ rfl hb.1 (Nat.zero_le _))
      rw [if_neg c3]
      by_cases c4 : (saveBest E i s).acceptable = true
      · rw [if_pos c4]
        exact Or.inr (sm _ rfl hb.1 (Nat.zero_le _))
      · rw [if_neg c4]; exact Or.inl rfl
    · rw [if_neg c2]
      right; right
      rw [hb.2, iterMax] at c2
      refine ⟨rfl, ⟨by dsimp only; omega, fun _ => by dsimp only; omega⟩, ?_⟩
      simp only [bound, hs, Step.pos, hb.1, hb.2]; omega
  case linearSearch =>
    have hq := h2 (by simp [hs])
    unfold call
    rw [hs]
    dsimp only
    split
    · exact Or.inr (sm _ rfl rfl (Nat.zero_le _))
    · right; right
      refine ⟨rfl, ⟨h1, fun _ => hq⟩, ?_⟩
      simp only [bound, hs, Step.pos]; omega
  case dropPhase =>
    right; right
    have hq := h2 (by simp [hs])
    unfold call
    rw [hs]
    dsimp only
    unfold dropStep
    rw [if_neg (by simp [hd, hd'])]
    refine ⟨by dsimp only; split <;> rfl, ⟨h1, fun _ => hq⟩, ?_⟩
    dsimp only [bound]
    rw [hs]
    split <;> simp only [Step.pos] <;> omega

/-- A history of calls: `f 0` is the first state, `f (n+1)` what the `n`-th call, with input `i n`, makes of `f n`. -/
def History (E : Env α) (i : ℕ → In α) (f : ℕ → St α) : Prop := ∀ n, f (n + 1) = (call E (i n) (f n)).1

/-- C57. A minimisation that starts with its iteration counter at zero (as every added or dropped phase leaves it) and in
which no further phase is dropped ends within 2880 calls of `silmin()`: one of them either goes on
to CONVERGENCE_TEST or stops the run with TRUE. This holds for every behaviour of the numerics, in
particular when no constraint is ever met, and includes the three stages of a buffered isenthalpic,
isentropic or isochoric run. -/
theorem C57_minimisation_ends (E : Env α) (i : ℕ → In α) (f : ℕ → St α) (hf : History E i f)
    (h0 : (f 0).step = .projectConstraints) (hq : (f 0).iterQuad = 0)
    (hd : ∀ n, (i n).anyDrop = false ∧ (i n).dropLiquid = false) :
    ∃ n < 2880, (call E (i n) (f n)).2 = true ∨ (f (n + 1)).step = .convergenceTest := by
  by_contra hc
  push Not at hc
  have key : ∀ n ≤ 2880, (f n).step.inLoop = true ∧ IterOk (f n) ∧ bound (f n) + n ≤ bound (f 0) := by
    intro n
    induction n with
    | zero =>
      intro _
      refine ⟨by rw [h0]; rfl, ⟨by omega, fun _ => by omega⟩, by omega⟩
    | succ n ih =>
      intro hn
      obtain ⟨a, b, c⟩ := ih (by omega)
      have hcn := hc n (by omega)
      rcases call_bound E (i n) (f n) a b (hd n).1 (hd n).2 with h | h | ⟨h1, h2, h3⟩
      · exact absurd h hcn.1
      · rw [← hf n] at h
        exact absurd h hcn.2
      · rw [← hf n] at h1 h2 h3
        exact ⟨h1, h2, by omega⟩
  have h := (key 2880 (by omega)).2.2
  have hb : bound (f 0) ≤ 2879 := by
    unfold bound
    rw [h0, hq]
    have : (f 0).stage.left ≤ 3 := by cases (f 0).stage <;> simp [Stage.left]
    simp only [Step.pos]
    omega
  omega

/-- Non-vacuity: numerics that never converge. -/
def stuckIn : In ℕ :=
  { asm := 0, release := false, add := .abort, drops := fun _ => 0, anyDrop := false, dropLiquid := false,
    split := fun _ => 0, rNorm := 1, sNorm := 1, stagnant := false }

/-- Non-vacuity: a buffered isenthalpic run. -/
def stuckEnv : Env ℕ :=
  { ref := fun _ => true, multipleLiqs := false, hasLiquid := fun _ => true, evalSat := fun _ => false,
    solidsSplit := fun _ => false, liquidsSplit := fun _ => false, tolBest := 1 / 100, tolConv := 1 / 1000,
    tolAcc := 1 / 100 }

/-- Non-vacuity: its start. -/
def stuckStart : St ℕ :=
  let sil : Sil ℕ := { asm := 0, flags := fun k => k == .H, fo2 := some 3, copies := fun _ => 1, cyl := fun _ => 0 }
  { step := .projectConstraints, stage := .pre, sil := sil, fo2Old := none, iterQuad := 0, acceptable := false,
    bestNorm := 1, best := sil, supersat := false, released := false, adds := fun _ => 0 }

/-- Non-vacuity: the history of that run. -/
def stuckHist : ℕ → St ℕ
  | 0 => stuckStart
  | n + 1 => (call stuckEnv stuckIn (stuckHist n)).1

example : History stuckEnv (fun _ => stuckIn) stuckHist ∧ (stuckHist 0).step = .projectConstraints ∧
    (stuckHist 0).iterQuad = 0 ∧ (stuckHist 9).step = .constructQuadratic := by
  refine ⟨fun _ => rfl, rfl, rfl, by decide +kernel⟩

/-- A subsolidus call that releases the buffer. -/
example : let E : Env ℕ := { stuckEnv with hasLiquid := fun _ => false }
    LiquidBlind E ∧ (call E { stuckIn with release := true } { stuckStart with step := .changeTP }).1.released = true := by
  refine ⟨fun _ _ => rfl, by decide⟩

end Magma.Engine.Auto
