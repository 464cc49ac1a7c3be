import Verif.Prelude

/-!
Model of the path part of UPDATE_SYSTEM, /repo/sources/silmin.c 1983-2118 (batch build, without
EASYMELTS_UPDATE_SYSTEM), and properties C10, C11.

Simplification: `double` is an ordered field; `correctTforChangeInEnthalpy`, `...Entropy` and
`correctPforChangeInVolume` deliver an arbitrary T or P.
-/

namespace Magma.Engine.Path

variable {K : Type} [Field K] [LinearOrder K] [IsStrictOrderedRing K]

/-- The part of `silminState` the path logic reads and writes. -/
structure PState (K : Type) where
  T : K
  Tstart : K
  Tstop : K
  Tinc : K
  P : K
  Pstart : K
  Pstop : K
  Pinc : K
  isenthalpic : Bool
  refH : K
  Hstop : K
  Hinc : K
  isentropic : Bool
  refS : K
  Sstop : K
  Sinc : K
  isochoric : Bool
  refV : K
  Vstop : K
  Vinc : K

/-- `inc != 0.0 ? inc : tol`. -/
def gate (inc tol : K) : K := if inc ≠ 0 then inc else tol

/-- `fabs(start - stop) >= (inc != 0.0 ? inc : tol)`, silmin.c 1983, 2011, 2069. -/
def far (start stop inc tol : K) : Bool := decide (gate inc tol ≤ |start - stop|)

/-- `fabs(stop - ref) >= (inc != 0.0 ? fabs(inc) : tol)`, silmin.c 2001, 2035, 2085. -/
def farRef (stop ref inc tol : K) : Bool := decide (gate |inc| tol ≤ |stop - ref|)

/-- `silminState->isenthalpic && (silminState->refEnthalpy != 0.0)` etc. -/
def hOn (s : PState K) : Bool := s.isenthalpic && decide (s.refH ≠ 0)
/-- isentropic constraint active, silmin.c 1985. -/
def sOn (s : PState K) : Bool := s.isentropic && decide (s.refS ≠ 0)
/-- isochoric constraint active, silmin.c 2070. -/
def vOn (s : PState K) : Bool := s.isochoric && decide (s.refV ≠ 0)

/-- silmin.c 1992-1996. -/
def stepT (s : PState K) : PState K :=
  if s.Tstart - s.Tstop < 0 then { s with T := s.T + s.Tinc, Tstart := s.Tstart + s.Tinc }
  else { s with T := s.T - s.Tinc, Tstart := s.Tstart - s.Tinc }

/-- silmin.c 2076-2080. -/
def stepP (s : PState K) : PState K :=
  if s.Pstart - s.Pstop < 0 then { s with P := s.P + s.Pinc, Pstart := s.Pstart + s.Pinc }
  else { s with P := s.P - s.Pinc, Pstart := s.Pstart - s.Pinc }

/-- silmin.c 1983-2067: temperature, enthalpy or entropy increment. `cT` is the temperature found by
the correction routines. -/
def updT (cT : PState K → K) (s : PState K) : PState K × Bool :=
  let bump (s : PState K) : PState K := { s with T := cT s }
  if far s.Tstart s.Tstop s.Tinc (1 / 1000) && !hOn s && !sOn s then (stepT s, true)
  else if decide (|s.Hstop| > 0) && farRef s.Hstop s.refH s.Hinc (1 / 1000) && hOn s then
    (bump { s with refH := s.refH + s.Hinc }, true)
  else if decide (s.Hstop = 0) && far s.Pstart s.Pstop s.Pinc (1 / 1000) && hOn s then
    (bump { s with refH := s.refH + s.Hinc }, true)
  else if decide (s.Hstop = 0) && decide (s.Hinc ≠ 0) && hOn s then
    if (if s.Hinc < 0 then s.Tstart - s.Tstop < 0 else s.Tstart - s.Tstop > 0) then
      (bump { s with refH := s.refH + s.Hinc }, true)
    else (s, false)
  else if decide (|s.Sstop| > 0) && farRef s.Sstop s.refS s.Sinc (1 / 1000) && sOn s then
    (bump { s with refS := s.refS + s.Sinc }, true)
  else if decide (s.Sstop = 0) && far s.Pstart s.Pstop s.Pinc (1 / 1000) && sOn s then
    (bump { s with refS := s.refS + s.Sinc }, true)
  else if decide (s.Sstop = 0) && decide (s.Sinc ≠ 0) && sOn s then
    if (if s.Sinc > 0 then s.Tstart - s.Tstop < 0 else s.Tstart - s.Tstop > 0) then
      (bump { s with refS := s.refS + s.Sinc }, true)
    else (s, false)
  else (s, false)

/-- silmin.c 2068-2118: pressure or volume increment. -/
def updP (cP : PState K → K) (s : PState K) : PState K × Bool :=
  let bump (s : PState K) : PState K := { s with P := cP s }
  if far s.Pstart s.Pstop s.Pinc (1 / 1000) && !vOn s then (stepP s, true)
  else if decide (|s.Vstop| > 0) && farRef s.Vstop s.refV s.Vinc (1 / 10000) && vOn s then
    (bump { s with refV := s.refV + s.Vinc }, true)
  else if decide (s.Vstop = 0) && far s.Tstart s.Tstop s.Tinc (1 / 1000) && vOn s then
    (bump { s with refV := s.refV + s.Vinc }, true)
  else if decide (s.Vstop = 0) && decide (s.Vinc ≠ 0) && vOn s then
    if (if s.Vinc < 0 then s.Pstart - s.Pstop < 0 else s.Pstart - s.Pstop > 0) then
      (bump { s with refV := s.refV + s.Vinc }, true)
    else (s, false)
  else (s, false)

/-- silmin.c 1977-2118: the new state and `stateChange` (`FALSE` ends the run). -/
def update (cT cP : PState K → K) (s : PState K) : PState K × Bool :=
  let a := updT cT s
  let b := updP cP a.1
  (b.1, a.2 || b.2)

/-- State in which the `n`-th equilibration of the run takes place. -/
def after (cT cP : PState K → K) (s : PState K) : ℕ → PState K
  | 0 => s
  | n + 1 => (update cT cP (after cT cP s n)).1

/-- Does the run continue after its `n`-th equilibration? -/
def continues (cT cP : PState K → K) (s : PState K) (n : ℕ) : Bool :=
  (update cT cP (after cT cP s n)).2

/-! ### Specification -/

/-- Signed direction from `start` to `stop`. -/
def dir (start stop : K) : K := if start < stop then 1 else -1

/-- `N` whole increments fit between `start` and `stop`, and no more. -/
def Fits (start stop inc : K) (N : ℕ) : Prop :=
  (N : K) * inc ≤ |start - stop| ∧ |start - stop| < ((N : K) + 1) * inc

/-- No energy constraint is in force. -/
def Plain (s : PState K) : Prop := hOn s = false ∧ sOn s = false ∧ vOn s = false

/-! ### Proofs -/

theorem exists_fits [Archimedean K] (start stop inc : K) (hi : 0 < inc) : ∃ N, Fits start stop inc N := by
  have h := exists_nat_gt (|start - stop| / inc)
  classical
  let p : ℕ → Prop := fun n => |start - stop| < ((n : K) + 1) * inc
  have hp : ∃ n, p n := by
    obtain ⟨n, hn⟩ := h
    refine ⟨n, ?_⟩
    have : |start - stop| < n * inc := by rwa [div_lt_iff₀ hi] at hn
    show |start - stop| < ((n : K) + 1) * inc
    linarith
  refine ⟨Nat.find hp, ?_, Nat.find_spec hp⟩
  rcases Nat.eq_zero_or_pos (Nat.find hp) with h0 | h0
  · rw [h0]; simp
  · have := Nat.find_min hp (Nat.sub_lt h0 one_pos)
    simp only [p, not_lt] at this
    have hc : ((Nat.find hp - 1 : ℕ) : K) + 1 = Nat.find hp := by
      have : Nat.find hp - 1 + 1 = Nat.find hp := Nat.succ_pred_eq_of_pos h0
      exact_mod_cast this
    rwa [hc] at this

theorem far_iff {start stop inc tol : K} (hi : 0 < inc) :
    far start stop inc tol = true ↔ inc ≤ |start - stop| := by
  simp [far, gate, hi.ne']

/-- What a temperature step does to the distance. -/
theorem step_dist {start stop inc : K} (hi : 0 < inc) (h : inc ≤ |start - stop|) :
    |start + dir start stop * inc - stop| = |start - stop| - inc ∧
    (inc < |start - stop| → dir (start + dir start stop * inc) stop = dir start stop) := by
  unfold dir
  by_cases hlt : start < stop
  · simp only [hlt, if_true, one_mul]
    have h1 : |start - stop| = stop - start := by rw [abs_of_neg (by linarith)]; ring
    rw [h1] at h ⊢
    constructor
    · rw [abs_of_nonpos (by linarith)]; ring
    · intro hh; rw [if_pos (by linarith)]
  · simp only [hlt, if_false]
    have h1 : |start - stop| = start - stop := abs_of_nonneg (by linarith)
    rw [h1] at h ⊢
    constructor
    · rw [abs_of_nonneg (by linarith)]; ring
    · intro hh; rw [if_neg (by linarith)]

theorem stepT_eq (s : PState K) : stepT s =
    { s with T := s.T + dir s.Tstart s.Tstop * s.Tinc,
             Tstart := s.Tstart + dir s.Tstart s.Tstop * s.Tinc } := by
  unfold stepT dir
  by_cases h : s.Tstart < s.Tstop
  · rw [if_pos (by linarith)]; simp [h]
  · rw [if_neg (by linarith)]; simp [h, sub_eq_add_neg]

theorem stepP_eq (s : PState K) : stepP s =
    { s with P := s.P + dir s.Pstart s.Pstop * s.Pinc,
             Pstart := s.Pstart + dir s.Pstart s.Pstop * s.Pinc } := by
  unfold stepP dir
  by_cases h : s.Pstart < s.Pstop
  · rw [if_pos (by linarith)]; simp [h]
  · rw [if_neg (by linarith)]; simp [h, sub_eq_add_neg]

/-- The moves of an axis: `n` steps of which only the first `N` move. -/
def moved (start stop inc : K) (N n : ℕ) : K := dir start stop * inc * (min n N : ℕ)

/-- Position of the axis after `n` rounds, and whether round `n` moves. -/
theorem axis_far {start stop inc tol : K} {N : ℕ} (hi : 0 < inc) (hN : Fits start stop inc N) (n : ℕ) :
    far (start + moved start stop inc N n) stop inc tol = decide (n < N) := by
  have hd : |start + moved start stop inc N n - stop| = |start - stop| - inc * (min n N : ℕ) := by
    have hle : inc * (min n N : ℕ) ≤ |start - stop| := by
      refine le_trans ?_ hN.1
      rw [mul_comm]
      have : ((min n N : ℕ) : K) ≤ N := by exact_mod_cast min_le_right n N
      exact mul_le_mul_of_nonneg_right this hi.le
    unfold moved dir
    by_cases hlt : start < stop
    · have h1 : |start - stop| = stop - start := by rw [abs_of_neg (by linarith)]; ring
      rw [h1] at hle ⊢
      simp only [hlt, if_true, one_mul]
      rw [abs_of_nonpos (by linarith)]; ring
    · have h1 : |start - stop| = start - stop := abs_of_nonneg (by linarith)
      rw [h1] at hle ⊢
      simp only [hlt, if_false]
      rw [abs_of_nonneg (by linarith)]; ring
  rw [Bool.eq_iff_iff, far_iff hi, hd, decide_eq_true_iff]
  constructor
  · intro h
    by_contra hc
    rw [min_eq_right (not_lt.mp hc)] at h
    have := hN.2
    linarith
  · intro h
    rw [min_eq_left h.le]
    have h1 : ((n : K) + 1) ≤ N := by exact_mod_cast h
    have h2 : ((n : K) + 1) * inc ≤ N * inc := mul_le_mul_of_nonneg_right h1 hi.le
    have := hN.1
    linarith

/-- One more round. -/
theorem axis_next {start stop inc : K} {N n : ℕ} (hi : 0 < inc) (hN : Fits start stop inc N) (h : n < N) :
    moved start stop inc N n + dir (start + moved start stop inc N n) stop * inc =
      moved start stop inc N (n + 1) := by
  have hdir : dir (start + moved start stop inc N n) stop = dir start stop := by
    have h1 : ((n : K) + 1) ≤ N := by exact_mod_cast h
    have h2 : ((n : K) + 1) * inc ≤ N * inc := mul_le_mul_of_nonneg_right h1 hi.le
    have h3 := hN.1
    unfold moved
    rw [min_eq_left h.le]
    unfold dir
    by_cases hlt : start < stop
    · have h4 : |start - stop| = stop - start := by rw [abs_of_neg (by linarith)]; ring
      rw [if_pos hlt, if_pos]
      rw [h4] at h3; linarith
    · have h4 : |start - stop| = start - stop := abs_of_nonneg (by linarith)
      rw [if_neg hlt, if_neg]
      rw [h4] at h3; linarith
  rw [hdir]
  unfold moved
  rw [min_eq_left h.le, min_eq_left (Nat.succ_le_of_lt h)]
  push_cast; ring

theorem plain_stepT {s : PState K} (h : Plain s) : Plain (stepT s) := by
  rw [stepT_eq]; exact h

theorem updT_plain (cT : PState K → K) {s : PState K} (h : Plain s) :
    updT cT s = if far s.Tstart s.Tstop s.Tinc (1 / 1000) then (stepT s, true) else (s, false) := by
  obtain ⟨h1, h2, _⟩ := h
  unfold updT
  simp only [h1, h2, Bool.and_false, Bool.not_false, Bool.and_true, Bool.false_eq_true, if_false]

theorem updP_plain (cP : PState K → K) {s : PState K} (h : Plain s) :
    updP cP s = if far s.Pstart s.Pstop s.Pinc (1 / 1000) then (stepP s, true) else (s, false) := by
  obtain ⟨_, _, h3⟩ := h
  unfold updP
  simp only [h3, Bool.and_false, Bool.not_false, Bool.and_true, Bool.false_eq_true, if_false]

/-- One round on a plain path. -/
theorem update_plain (cT cP : PState K → K) {s : PState K} (h : Plain s) :
    (update cT cP s).2 = (far s.Tstart s.Tstop s.Tinc (1 / 1000) || far s.Pstart s.Pstop s.Pinc (1 / 1000)) ∧
    (update cT cP s).1 = (let a := if far s.Tstart s.Tstop s.Tinc (1 / 1000) then stepT s else s
                          if far s.Pstart s.Pstop s.Pinc (1 / 1000) then stepP a else a) := by
  unfold update
  dsimp only
  rw [updT_plain cT h]
  by_cases hf : far s.Tstart s.Tstop s.Tinc (1 / 1000) = true
  · rw [if_pos hf, if_pos hf, updP_plain cP (plain_stepT h)]
    have e1 : (stepT s).Pstart = s.Pstart := by rw [stepT_eq]
    have e2 : (stepT s).Pstop = s.Pstop := by rw [stepT_eq]
    have e3 : (stepT s).Pinc = s.Pinc := by rw [stepT_eq]
    rw [e1, e2, e3, hf]
    split <;> simp_all
  · rw [if_neg hf, if_neg hf, updP_plain cP h]
    have hf' : far s.Tstart s.Tstop s.Tinc (1 / 1000) = false := by simpa using hf
    rw [hf']
    split <;> simp_all

/-- C10. With positive increments and no energy constraint, let `NT` (`NP`) whole increments fit between the
initial and final temperature (pressure). Then in the `n`-th equilibration the temperature is the initial
one moved `min n NT` increments towards the final one, the pressure likewise, and the run
ends exactly after `max NT NP` increments. -/
theorem C10_path (cT cP : PState K → K) (s : PState K) (h : Plain s) (NT NP : ℕ)
    (hTi : 0 < s.Tinc) (hPi : 0 < s.Pinc)
    (hT : Fits s.Tstart s.Tstop s.Tinc NT) (hP : Fits s.Pstart s.Pstop s.Pinc NP) (n : ℕ) :
    (after cT cP s n).T = s.T + dir s.Tstart s.Tstop * s.Tinc * (min n NT : ℕ) ∧
    (after cT cP s n).P = s.P + dir s.Pstart s.Pstop * s.Pinc * (min n NP : ℕ) ∧
    (continues cT cP s n = true ↔ n < max NT NP) := by
  have key : after cT cP s n = { s with
      T := s.T + moved s.Tstart s.Tstop s.Tinc NT n
      Tstart := s.Tstart + moved s.Tstart s.Tstop s.Tinc NT n
      P := s.P + moved s.Pstart s.Pstop s.Pinc NP n
      Pstart := s.Pstart + moved s.Pstart s.Pstop s.Pinc NP n } := by
    induction n with
    | zero => simp [after, moved]
    | succ n ih =>
      rw [after, ih]
      have hpl : Plain { s with
          T := s.T + moved s.Tstart s.Tstop s.Tinc NT n
          Tstart := s.Tstart + moved s.Tstart s.Tstop s.Tinc NT n
          P := s.P + moved s.Pstart s.Pstop s.Pinc NP n
          Pstart := s.Pstart + moved s.Pstart s.Pstop s.Pinc NP n } := h
      rw [(update_plain cT cP hpl).2]
      dsimp only
      rw [axis_far hTi hT n, axis_far hPi hP n]
      have mT : ∀ m, ¬ n < NT → m = n ∨ m = n + 1 →
          moved s.Tstart s.Tstop s.Tinc NT m = moved s.Tstart s.Tstop s.Tinc NT n := by
        intro m hm hmm
        have hm' := not_lt.mp hm
        unfold moved
        rw [min_eq_right hm', min_eq_right (by omega : NT ≤ m)]
      have mP : ∀ m, ¬ n < NP → m = n ∨ m = n + 1 →
          moved s.Pstart s.Pstop s.Pinc NP m = moved s.Pstart s.Pstop s.Pinc NP n := by
        intro m hm hmm
        have hm' := not_lt.mp hm
        unfold moved
        rw [min_eq_right hm', min_eq_right (by omega : NP ≤ m)]
      by_cases h1 : n < NT <;> by_cases h2 : n < NP
      · simp only [h1, h2, decide_true, if_true, stepP_eq, stepT_eq]
        rw [← axis_next hTi hT h1, ← axis_next hPi hP h2]
        simp only [add_assoc]
      · simp only [h1, h2, decide_true, decide_false, if_true, Bool.false_eq_true, if_false, stepT_eq]
        rw [← axis_next hTi hT h1, mP (n + 1) h2 (Or.inr rfl)]
        simp only [add_assoc]
      · simp only [h1, h2, decide_true, decide_false, if_true, Bool.false_eq_true, if_false, stepP_eq]
        rw [← axis_next hPi hP h2, mT (n + 1) h1 (Or.inr rfl)]
        simp only [add_assoc]
      · simp only [h1, h2, decide_false, Bool.false_eq_true, if_false]
        rw [mT (n + 1) h1 (Or.inr rfl), mP (n + 1) h2 (Or.inr rfl)]
  refine ⟨by rw [key]; rfl, by rw [key]; rfl, ?_⟩
  unfold continues
  rw [key]
  have hpl : Plain { s with
      T := s.T + moved s.Tstart s.Tstop s.Tinc NT n
      Tstart := s.Tstart + moved s.Tstart s.Tstop s.Tinc NT n
      P := s.P + moved s.Pstart s.Pstop s.Pinc NP n
      Pstart := s.Pstart + moved s.Pstart s.Pstop s.Pinc NP n } := h
  rw [(update_plain cT cP hpl).1]
  dsimp only
  rw [axis_far hTi hT n, axis_far hPi hP n]
  simp [lt_max_iff]

/-- C10, corollaries a user reads: every temperature of the run lies between the initial and the final one
(never overshoots), and the last one is closer to the final one than one increment; it equals it exactly
when the increment divides the interval. Here the engine's `T` starts at the path's start. -/
theorem C10_no_overshoot (cT cP : PState K → K) (s : PState K) (h : Plain s) (NT NP : ℕ)
    (hTi : 0 < s.Tinc) (hPi : 0 < s.Pinc) (hs : s.T = s.Tstart)
    (hT : Fits s.Tstart s.Tstop s.Tinc NT) (hP : Fits s.Pstart s.Pstop s.Pinc NP) :
    (∀ n, min s.Tstart s.Tstop ≤ (after cT cP s n).T ∧ (after cT cP s n).T ≤ max s.Tstart s.Tstop) ∧
    |(after cT cP s (max NT NP)).T - s.Tstop| < s.Tinc ∧
    ((after cT cP s (max NT NP)).T = s.Tstop ↔ (NT : K) * s.Tinc = |s.Tstart - s.Tstop|) := by
  have hdist : ∀ m : ℕ, m ≤ NT → (m : K) * s.Tinc ≤ |s.Tstart - s.Tstop| := by
    intro m hm
    refine le_trans ?_ hT.1
    exact mul_le_mul_of_nonneg_right (by exact_mod_cast hm) hTi.le
  refine ⟨?_, ?_, ?_⟩
  · intro n
    rw [(C10_path cT cP s h NT NP hTi hPi hT hP n).1, hs]
    have hb := hdist (min n NT) (min_le_right _ _)
    have hnn : 0 ≤ ((min n NT : ℕ) : K) * s.Tinc := mul_nonneg (Nat.cast_nonneg _) hTi.le
    unfold dir
    by_cases hlt : s.Tstart < s.Tstop
    · have h1 : |s.Tstart - s.Tstop| = s.Tstop - s.Tstart := by rw [abs_of_neg (by linarith)]; ring
      rw [h1] at hb
      rw [if_pos hlt, min_eq_left hlt.le, max_eq_right hlt.le]
      constructor <;> nlinarith
    · have h1 : |s.Tstart - s.Tstop| = s.Tstart - s.Tstop := abs_of_nonneg (by linarith)
      rw [h1] at hb
      rw [if_neg hlt, min_eq_right (not_lt.mp hlt), max_eq_left (not_lt.mp hlt)]
      constructor <;> nlinarith
  · rw [(C10_path cT cP s h NT NP hTi hPi hT hP _).1, hs, min_eq_right (le_max_left _ _)]
    have h1 := hT.1
    have h2 := hT.2
    unfold dir
    by_cases hlt : s.Tstart < s.Tstop
    · have h3 : |s.Tstart - s.Tstop| = s.Tstop - s.Tstart := by rw [abs_of_neg (by linarith)]; ring
      rw [h3] at h1 h2
      rw [if_pos hlt, abs_lt]
      constructor <;> nlinarith
    · have h3 : |s.Tstart - s.Tstop| = s.Tstart - s.Tstop := abs_of_nonneg (by linarith)
      rw [h3] at h1 h2
      rw [if_neg hlt, abs_lt]
      constructor <;> nlinarith
  · rw [(C10_path cT cP s h NT NP hTi hPi hT hP _).1, hs, min_eq_right (le_max_left _ _)]
    unfold dir
    by_cases hlt : s.Tstart < s.Tstop
    · have h3 : |s.Tstart - s.Tstop| = s.Tstop - s.Tstart := by rw [abs_of_neg (by linarith)]; ring
      rw [if_pos hlt, h3]
      constructor <;> intro hh <;> linarith
    · have h3 : |s.Tstart - s.Tstop| = s.Tstart - s.Tstop := abs_of_nonneg (by linarith)
      rw [if_neg hlt, h3]
      constructor <;> intro hh <;> linarith

/-- A reference value moved `m ≤ N` increments towards its target: another one fits iff `m < N`. -/
theorem ref_far {ref stop inc tol : K} {N m : ℕ} (hinc : inc ≠ 0) (hsign : 0 ≤ (stop - ref) * inc)
    (hN : Fits ref stop |inc| N) (hm : m ≤ N) :
    farRef stop (ref + m * inc) inc tol = decide (m < N) := by
  have hpos : 0 < |inc| := abs_pos.mpr hinc
  have hd : |stop - (ref + m * inc)| = |ref - stop| - m * |inc| := by
    have hle : (m : K) * |inc| ≤ |ref - stop| := by
      refine le_trans ?_ hN.1
      exact mul_le_mul_of_nonneg_right (by exact_mod_cast hm) hpos.le
    rcases lt_or_gt_of_ne hinc with hneg | hpos'
    · have hd0 : stop - ref ≤ 0 := by
        by_contra hc
        have := mul_neg_of_pos_of_neg (not_le.mp hc) hneg
        linarith
      rw [abs_of_neg hneg] at hle ⊢
      rw [abs_of_nonneg (by linarith : (0:K) ≤ ref - stop)] at hle ⊢
      rw [abs_of_nonpos (by linarith)]; ring
    · have hd0 : 0 ≤ stop - ref := by
        by_contra hc
        have := mul_neg_of_neg_of_pos (not_le.mp hc) hpos'
        linarith
      rw [abs_of_pos hpos'] at hle ⊢
      rw [abs_of_nonpos (by linarith : ref - stop ≤ 0)] at hle ⊢
      rw [abs_of_nonneg (by linarith)]; ring
  have hg : gate |inc| tol = |inc| := by simp [gate, hinc]
  unfold farRef
  rw [hg, hd]
  congr 1
  rw [eq_iff_iff]
  constructor
  · intro h
    by_contra hc
    have hmN : m = N := le_antisymm hm (not_lt.mp hc)
    subst hmN
    have := hN.2
    linarith
  · intro h
    have h4 : ((m : K) + 1) ≤ N := by exact_mod_cast h
    have h5 : ((m : K) + 1) * |inc| ≤ N * |inc| := mul_le_mul_of_nonneg_right h4 hpos.le
    have := hN.1
    linarith

/-- The constants of a path and its pressure part are untouched by a temperature round and vice versa. -/
theorem updP_frame (cP : PState K → K) (t : PState K) :
    (updP cP t).1.refH = t.refH ∧ (updP cP t).1.isenthalpic = t.isenthalpic ∧
    (updP cP t).1.Hstop = t.Hstop ∧ (updP cP t).1.Hinc = t.Hinc ∧
    (updP cP t).1.refS = t.refS ∧ (updP cP t).1.isentropic = t.isentropic ∧
    (updP cP t).1.Sstop = t.Sstop ∧ (updP cP t).1.Sinc = t.Sinc := by
  unfold updP stepP
  dsimp only
  (repeat' split) <;> exact ⟨rfl, rfl, rfl, rfl, rfl, rfl, rfl, rfl⟩

theorem updT_frame (cT : PState K → K) (t : PState K) :
    (updT cT t).1.refV = t.refV ∧ (updT cT t).1.isochoric = t.isochoric ∧
    (updT cT t).1.Vstop = t.Vstop ∧ (updT cT t).1.Vinc = t.Vinc := by
  unfold updT stepT
  dsimp only
  (repeat' split) <;> exact ⟨rfl, rfl, rfl, rfl⟩

/-- C10, enthalpy path: an isenthalpic run with a target enthalpy `Hstop ≠ 0` and an increment of the
right sign, `N` of which fit, moves the reference enthalpy by one increment per equilibration, `N` times,
as long as it does not hit exactly 0 on the way (0 means "not set" to the engine). -/
theorem C10_enthalpy_path (cT cP : PState K → K) (s : PState K) (N : ℕ)
    (hen : s.isenthalpic = true) (hnS : s.isentropic = false) (hstop : s.Hstop ≠ 0)
    (hinc : s.Hinc ≠ 0) (hsign : 0 ≤ (s.Hstop - s.refH) * s.Hinc)
    (hN : Fits s.refH s.Hstop |s.Hinc| N)
    (hnz : ∀ m : ℕ, m ≤ N → s.refH + m * s.Hinc ≠ 0) (n : ℕ) :
    (after cT cP s n).refH = s.refH + (min n N : ℕ) * s.Hinc ∧
    ((updT cT (after cT cP s n)).2 = true ↔ n < N) := by
  have hupd : ∀ t : PState K, ∀ m : ℕ, m ≤ N → t.isenthalpic = true → t.isentropic = false →
      t.Hstop = s.Hstop → t.Hinc = s.Hinc → t.refH = s.refH + m * s.Hinc →
      (updT cT t).1.refH = s.refH + (min (m + 1) N : ℕ) * s.Hinc ∧
      ((updT cT t).2 = true ↔ m < N) ∧ (updT cT t).1.isenthalpic = true ∧
      (updT cT t).1.isentropic = false ∧
      (updT cT t).1.Hstop = s.Hstop ∧ (updT cT t).1.Hinc = s.Hinc := by
    intro t m hm h0 hS h1 h2 h3
    have hon : hOn t = true := by
      unfold hOn; rw [h0, h3]; simpa using hnz m hm
    have hson : sOn t = false := by unfold sOn; rw [hS]; rfl
    have hf : farRef t.Hstop t.refH t.Hinc (1 / 1000) = decide (m < N) := by
      rw [h1, h2, h3]; exact ref_far hinc hsign hN hm
    have hst : decide (|t.Hstop| > 0) = true := by rw [h1]; simpa using hstop
    have hst' : decide (t.Hstop = 0) = false := by rw [h1]; simpa using hstop
    by_cases hmN : m < N
    · rw [decide_eq_true hmN] at hf
      unfold updT
      simp only [hon, hf, hst, Bool.not_true, Bool.and_false, Bool.false_and, Bool.false_eq_true,
        if_false, Bool.and_self, if_true]
      refine ⟨?_, by simp [hmN], h0, hS, h1, h2⟩
      rw [h3, h2, min_eq_left (Nat.succ_le_of_lt hmN)]; push_cast; ring
    · have hmN' : m = N := le_antisymm hm (not_lt.mp hmN)
      rw [decide_eq_false hmN] at hf
      unfold updT
      simp only [hon, hson, hf, hst', Bool.not_true, Bool.and_false, Bool.false_and,
        Bool.false_eq_true, if_false]
      refine ⟨?_, by simp [hmN], h0, hS, h1, h2⟩
      rw [h3, min_eq_right (by omega), hmN']
  have key : ∀ n, (after cT cP s n).isenthalpic = true ∧ (after cT cP s n).isentropic = false ∧
      (after cT cP s n).Hstop = s.Hstop ∧ (after cT cP s n).Hinc = s.Hinc ∧
      (after cT cP s n).refH = s.refH + (min n N : ℕ) * s.Hinc := by
    intro n
    induction n with
    | zero => exact ⟨hen, hnS, rfl, rfl, by simp [after]⟩
    | succ n ih =>
      obtain ⟨a, b, c, d, e⟩ := ih
      have hu := hupd _ (min n N) (min_le_right _ _) a b c d e
      have hp := updP_frame cP (updT cT (after cT cP s n)).1
      rw [after, update]
      dsimp only
      rw [hp.1, hp.2.1, hp.2.2.1, hp.2.2.2.1, hp.2.2.2.2.2.1]
      refine ⟨hu.2.2.1, hu.2.2.2.1, hu.2.2.2.2.1, hu.2.2.2.2.2, ?_⟩
      rw [hu.1]
      congr 3
      omega
  obtain ⟨a, b, c, d, e⟩ := key n
  refine ⟨e, ?_⟩
  rw [(hupd _ (min n N) (min_le_right _ _) a b c d e).2.1]
  omega

/-- C10, entropy path: as for the enthalpy. -/
theorem C10_entropy_path (cT cP : PState K → K) (s : PState K) (N : ℕ)
    (hen : s.isentropic = true) (hnH : s.isenthalpic = false) (hstop : s.Sstop ≠ 0)
    (hinc : s.Sinc ≠ 0) (hsign : 0 ≤ (s.Sstop - s.refS) * s.Sinc)
    (hN : Fits s.refS s.Sstop |s.Sinc| N)
    (hnz : ∀ m : ℕ, m ≤ N → s.refS + m * s.Sinc ≠ 0) (n : ℕ) :
    (after cT cP s n).refS = s.refS + (min n N : ℕ) * s.Sinc ∧
    ((updT cT (after cT cP s n)).2 = true ↔ n < N) := by
  have hupd : ∀ t : PState K, ∀ m : ℕ, m ≤ N → t.isentropic = true → t.isenthalpic = false →
      t.Sstop = s.Sstop → t.Sinc = s.Sinc → t.refS = s.refS + m * s.Sinc →
      (updT cT t).1.refS = s.refS + (min (m + 1) N : ℕ) * s.Sinc ∧
      ((updT cT t).2 = true ↔ m < N) ∧ (updT cT t).1.isentropic = true ∧
      (updT cT t).1.isenthalpic = false ∧
      (updT cT t).1.Sstop = s.Sstop ∧ (updT cT t).1.Sinc = s.Sinc := by
    intro t m hm h0 hH h1 h2 h3
    have hon : sOn t = true := by
      unfold sOn; rw [h0, h3]; simpa using hnz m hm
    have hhon : hOn t = false := by unfold hOn; rw [hH]; rfl
    have hf : farRef t.Sstop t.refS t.Sinc (1 / 1000) = decide (m < N) := by
      rw [h1, h2, h3]; exact ref_far hinc hsign hN hm
    have hst : decide (|t.Sstop| > 0) = true := by rw [h1]; simpa using hstop
    have hst' : decide (t.Sstop = 0) = false := by rw [h1]; simpa using hstop
    by_cases hmN : m < N
    · rw [decide_eq_true hmN] at hf
      unfold updT
      simp only [hon, hhon, hf, hst, Bool.not_true, Bool.and_false, Bool.false_eq_true,
        if_false, Bool.and_self, if_true]
      refine ⟨?_, by simp [hmN], h0, hH, h1, h2⟩
      rw [h3, h2, min_eq_left (Nat.succ_le_of_lt hmN)]; push_cast; ring
    · have hmN' : m = N := le_antisymm hm (not_lt.mp hmN)
      rw [decide_eq_false hmN] at hf
      unfold updT
      simp only [hon, hhon, hf, hst', Bool.not_true, Bool.and_false, Bool.false_and,
        Bool.false_eq_true, if_false]
      refine ⟨?_, by simp [hmN], h0, hH, h1, h2⟩
      rw [h3, min_eq_right (by omega), hmN']
  have key : ∀ n, (after cT cP s n).isentropic = true ∧ (after cT cP s n).isenthalpic = false ∧
      (after cT cP s n).Sstop = s.Sstop ∧ (after cT cP s n).Sinc = s.Sinc ∧
      (after cT cP s n).refS = s.refS + (min n N : ℕ) * s.Sinc := by
    intro n
    induction n with
    | zero => exact ⟨hen, hnH, rfl, rfl, by simp [after]⟩
    | succ n ih =>
      obtain ⟨a, b, c, d, e⟩ := ih
      have hu := hupd _ (min n N) (min_le_right _ _) a b c d e
      have hp := updP_frame cP (updT cT (after cT cP s n)).1
      rw [after, update]
      dsimp only
      rw [hp.2.1, hp.2.2.2.2.1, hp.2.2.2.2.2.1, hp.2.2.2.2.2.2.1, hp.2.2.2.2.2.2.2]
      refine ⟨hu.2.2.1, hu.2.2.2.1, hu.2.2.2.2.1, hu.2.2.2.2.2, ?_⟩
      rw [hu.1]
      congr 3
      omega
  obtain ⟨a, b, c, d, e⟩ := key n
  refine ⟨e, ?_⟩
  rw [(hupd _ (min n N) (min_le_right _ _) a b c d e).2.1]
  omega

/-- C10, volume path: as for the enthalpy. -/
theorem C10_volume_path (cT cP : PState K → K) (s : PState K) (N : ℕ)
    (hen : s.isochoric = true) (hstop : s.Vstop ≠ 0)
    (hinc : s.Vinc ≠ 0) (hsign : 0 ≤ (s.Vstop - s.refV) * s.Vinc)
    (hN : Fits s.refV s.Vstop |s.Vinc| N)
    (hnz : ∀ m : ℕ, m ≤ N → s.refV + m * s.Vinc ≠ 0) (n : ℕ) :
    (after cT cP s n).refV = s.refV + (min n N : ℕ) * s.Vinc ∧
    ((updP cP (updT cT (after cT cP s n)).1).2 = true ↔ n < N) := by
  have hupd : ∀ t : PState K, ∀ m : ℕ, m ≤ N → t.isochoric = true →
      t.Vstop = s.Vstop → t.Vinc = s.Vinc → t.refV = s.refV + m * s.Vinc →
      (updP cP t).1.refV = s.refV + (min (m + 1) N : ℕ) * s.Vinc ∧
      ((updP cP t).2 = true ↔ m < N) ∧ (updP cP t).1.isochoric = true ∧
      (updP cP t).1.Vstop = s.Vstop ∧ (updP cP t).1.Vinc = s.Vinc := by
    intro t m hm h0 h1 h2 h3
    have hon : vOn t = true := by
      unfold vOn; rw [h0, h3]; simpa using hnz m hm
    have hf : farRef t.Vstop t.refV t.Vinc (1 / 10000) = decide (m < N) := by
      rw [h1, h2, h3]; exact ref_far hinc hsign hN hm
    have hst : decide (|t.Vstop| > 0) = true := by rw [h1]; simpa using hstop
    have hst' : decide (t.Vstop = 0) = false := by rw [h1]; simpa using hstop
    by_cases hmN : m < N
    · rw [decide_eq_true hmN] at hf
      unfold updP
      simp only [hon, hf, hst, Bool.not_true, Bool.and_false, Bool.false_eq_true,
        if_false, Bool.and_self, if_true]
      refine ⟨?_, by simp [hmN], h0, h1, h2⟩
      rw [h3, h2, min_eq_left (Nat.succ_le_of_lt hmN)]; push_cast; ring
    · have hmN' : m = N := le_antisymm hm (not_lt.mp hmN)
      rw [decide_eq_false hmN] at hf
      unfold updP
      simp only [hon, hf, hst', Bool.not_true, Bool.and_false, Bool.false_and,
        Bool.false_eq_true, if_false]
      refine ⟨?_, by simp [hmN], h0, h1, h2⟩
      rw [h3, min_eq_right (by omega), hmN']
  have key : ∀ n, (after cT cP s n).isochoric = true ∧
      (after cT cP s n).Vstop = s.Vstop ∧ (after cT cP s n).Vinc = s.Vinc ∧
      (after cT cP s n).refV = s.refV + (min n N : ℕ) * s.Vinc := by
    intro n
    induction n with
    | zero => exact ⟨hen, rfl, rfl, by simp [after]⟩
    | succ n ih =>
      obtain ⟨a, c, d, e⟩ := ih
      have hf := updT_frame cT (after cT cP s n)
      have hu := hupd (updT cT (after cT cP s n)).1 (min n N) (min_le_right _ _)
        (by rw [hf.2.1]; exact a) (by rw [hf.2.2.1]; exact c) (by rw [hf.2.2.2]; exact d)
        (by rw [hf.1]; exact e)
      rw [after, update]
      dsimp only
      refine ⟨hu.2.2.1, hu.2.2.2.1, hu.2.2.2.2, ?_⟩
      rw [hu.1]
      congr 3
      omega
  obtain ⟨a, c, d, e⟩ := key n
  refine ⟨e, ?_⟩
  have hf := updT_frame cT (after cT cP s n)
  rw [(hupd (updT cT (after cT cP s n)).1 (min n N) (min_le_right _ _)
        (by rw [hf.2.1]; exact a) (by rw [hf.2.2.1]; exact c) (by rw [hf.2.2.2]; exact d)
        (by rw [hf.1]; exact e)).2.1]
  omega

/-! ### C11 -/

/-- C11. A zero temperature increment with end points a thousandth of a degree or more apart: the run never ends and
the temperature never moves. -/
theorem C11_zero_increment (cT cP : PState K → K) (s : PState K) (hH : hOn s = false)
    (hS : sOn s = false) (hV : vOn s = false) (hinc : s.Tinc = 0)
    (hd : 1 / 1000 ≤ |s.Tstart - s.Tstop|) (n : ℕ) :
    continues cT cP s n = true ∧ (after cT cP s n).T = s.T := by
  have key : Plain (after cT cP s n) ∧ (after cT cP s n).Tinc = 0 ∧
      (after cT cP s n).Tstart = s.Tstart ∧ (after cT cP s n).Tstop = s.Tstop ∧
      (after cT cP s n).T = s.T := by
    induction n with
    | zero => exact ⟨⟨hH, hS, hV⟩, hinc, rfl, rfl, rfl⟩
    | succ n ih =>
      obtain ⟨hp, h1, h2, h3, h4⟩ := ih
      rw [after, (update_plain cT cP hp).2]
      dsimp only
      simp only [stepT_eq, stepP_eq]
      split <;> split <;> exact ⟨hp, by simp [h1], by simp [h1, h2], by simp [h3], by simp [h1, h4]⟩
  obtain ⟨hp, h1, h2, h3, h4⟩ := key
  refine ⟨?_, h4⟩
  unfold continues
  rw [(update_plain cT cP hp).1, h1, h2, h3]
  have : far s.Tstart s.Tstop 0 (1 / 1000) = true := by
    simp only [far, gate, ne_eq, not_true_eq_false, if_false, decide_eq_true_eq]; exact hd
  rw [this]; rfl

/-- C11, negative temperature increment (the test compares a distance with the signed increment): the run never ends and the
temperature runs away from the final one by one increment per equilibration, even if the end points coincide. -/
theorem C11_negative_increment (cT cP : PState K → K) (s : PState K) (hH : hOn s = false)
    (hS : sOn s = false) (hV : vOn s = false) (hinc : s.Tinc < 0) (hs : s.T = s.Tstart) (n : ℕ) :
    continues cT cP s n = true ∧ |(after cT cP s n).T - s.Tstop| = |s.Tstart - s.Tstop| + n * |s.Tinc| := by
  have key : Plain (after cT cP s n) ∧ (after cT cP s n).Tinc = s.Tinc ∧
      (after cT cP s n).Tstop = s.Tstop ∧ (after cT cP s n).T = (after cT cP s n).Tstart ∧
      |(after cT cP s n).Tstart - s.Tstop| = |s.Tstart - s.Tstop| + n * |s.Tinc| := by
    induction n with
    | zero => exact ⟨⟨hH, hS, hV⟩, rfl, rfl, hs, by simp [after]⟩
    | succ n ih =>
      obtain ⟨hp, h1, h2, h3, h4⟩ := ih
      have hf : far (after cT cP s n).Tstart (after cT cP s n).Tstop (after cT cP s n).Tinc (1 / 1000) = true := by
        rw [h1]
        simp only [far, gate, ne_eq, hinc.ne, not_false_eq_true, if_true, decide_eq_true_eq]
        exact le_trans hinc.le (abs_nonneg _)
      have hm : |(after cT cP s n).Tstart + dir (after cT cP s n).Tstart (after cT cP s n).Tstop *
          (after cT cP s n).Tinc - s.Tstop| = |s.Tstart - s.Tstop| + ((n + 1 : ℕ) : K) * |s.Tinc| := by
        rw [h1, h2]
        unfold dir
        rw [abs_of_neg hinc] at h4 ⊢
        push_cast
        split
        · rename_i hlt
          rw [abs_of_neg (by linarith)] at h4
          rw [abs_of_neg (by linarith)]
          linarith
        · rename_i hlt
          rw [abs_of_nonneg (by linarith)] at h4
          rw [abs_of_nonneg (by linarith)]
          linarith
      rw [after, (update_plain cT cP hp).2, hf]
      dsimp only
      simp only [stepT_eq, stepP_eq, if_true]
      split
      · exact ⟨hp, h1, h2, by simp [h3], hm⟩
      · exact ⟨hp, h1, h2, by simp [h3], hm⟩
  obtain ⟨hp, h1, h2, h3, h4⟩ := key
  refine ⟨?_, by rw [h3]; exact h4⟩
  unfold continues
  rw [(update_plain cT cP hp).1, h1, h2]
  have : far (after cT cP s n).Tstart s.Tstop s.Tinc (1 / 1000) = true := by
    simp only [far, gate, ne_eq, hinc.ne, not_false_eq_true, if_true, decide_eq_true_eq]
    exact le_trans hinc.le (abs_nonneg _)
  rw [this]; rfl

/-! ### Concrete paths -/

/-- 1200 to 1100 in steps of 30 at constant pressure. -/
def demo : PState ℚ :=
  { T := 1200, Tstart := 1200, Tstop := 1100, Tinc := 30, P := 500, Pstart := 500, Pstop := 500, Pinc := 1,
    isenthalpic := false, refH := 0, Hstop := 0, Hinc := 0, isentropic := false, refS := 0, Sstop := 0,
    Sinc := 0, isochoric := false, refV := 0, Vstop := 0, Vinc := 0 }

example : Plain demo ∧ Fits demo.Tstart demo.Tstop demo.Tinc 3 ∧ Fits demo.Pstart demo.Pstop demo.Pinc 0 := by
  refine ⟨⟨by decide, by decide, by decide⟩, ?_, ?_⟩ <;> norm_num [Fits, demo]

example : (after (fun s => s.T) (fun s => s.P) demo 3).T = 1110 ∧
    continues (fun s => s.T) (fun s => s.P) demo 2 = true ∧
    continues (fun s => s.T) (fun s => s.P) demo 3 = false := by decide +kernel

/-- An enthalpy path from -1000 to -990 in steps of 4. -/
example : Fits (-1000 : ℚ) (-990) |4| 2 ∧ ∀ m : ℕ, m ≤ 2 → (-1000 : ℚ) + m * 4 ≠ 0 := by
  constructor
  · norm_num [Fits]
  · intro m hm
    interval_cases m <;> norm_num

end Magma.Engine.Path
