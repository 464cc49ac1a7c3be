import Verif.Engine.SaturationProps

/-!
C71, continued: what the affinity of an absent phase says about saturation, and the ideal solution.
-/

namespace Magma.Engine.Saturation

open Finset Magma.Num Magma.Num.Householder Magma.Num.Constraint

noncomputable section

/-- Mole fractions of a composition without the excluded end members. -/
structure IsComp (na : ℕ) (zero : ℕ → Bool) (x : ℕ → ℝ) : Prop where
  nonneg : ∀ i < na, 0 ≤ x i
  absent : ∀ i < na, zero i = true → x i = 0
  total : ∑ i ∈ range na, x i = 1

/-- Gibbs' inequality, one term. -/
theorem gibbs_term {x y : ℝ} (hx : 0 < x) (hy : 0 ≤ y) : y - x ≤ y * (Real.log y - Real.log x) := by
  rcases hy.eq_or_lt with h | h
  · rw [← h]; simp; exact hx.le
  · have := Real.log_le_sub_one_of_pos (div_pos hx h)
    rw [Real.log_div hx.ne' h.ne'] at this
    have e : y * (x / y - 1) = x - y := by field_simp
    nlinarith

theorem gibbs_term_lt {x y : ℝ} (hx : 0 < x) (hy : 0 ≤ y) (hne : y ≠ x) : y - x < y * (Real.log y - Real.log x) := by
  rcases hy.eq_or_lt with h | h
  · rw [← h]; simp; exact hx
  · have := Real.log_lt_sub_one_of_pos (div_pos hx h) (by rw [Ne, div_eq_one_iff_eq h.ne']; exact hne.symm)
    rw [Real.log_div hx.ne' h.ne'] at this
    have e : y * (x / y - 1) = x - y := by field_simp
    nlinarith

theorem guess_isComp (S : Soln) {RT : ℝ} (zero : ℕ → Bool) (mu : ℕ → ℝ) (hRT : RT ≠ 0) (h : ∃ i < S.na, zero i = false) :
    IsComp S.na zero (guessFrac S RT zero mu) := by
  obtain ⟨h0, h1, h2⟩ := C71_guess S RT zero mu hRT h
  refine ⟨fun i hi => ?_, h0, h2⟩
  cases hz : zero i
  · exact (h1 i hi hz).1.le
  · exact (h0 i hi hz).ge

/-- **C71.** The affinity of the first guess is the least energy, relative to the liquid, of an ideal solution of the end
members that are not excluded. -/
theorem C71_guess_minimum (S : Soln) {RT : ℝ} (zero : ℕ → Bool) (mu : ℕ → ℝ) (hRT : 0 < RT)
    (h : ∃ i < S.na, zero i = false) {y : ℕ → ℝ} (hy : IsComp S.na zero y) :
    guessAffinity S RT zero mu ≤ ∑ i ∈ range S.na, y i * (mu i + RT * Real.log (y i)) ∧
    (guessAffinity S RT zero mu = ∑ i ∈ range S.na, y i * (mu i + RT * Real.log (y i)) →
      ∀ i < S.na, y i = guessFrac S RT zero mu i) := by
  obtain ⟨h0, h1, h2⟩ := C71_guess S RT zero mu hRT.ne' h
  set A := guessAffinity S RT zero mu
  set x := guessFrac S RT zero mu
  have e : ∑ i ∈ range S.na, y i * (mu i + RT * Real.log (y i)) - A =
      RT * ∑ i ∈ range S.na, (if zero i then 0 else y i * (Real.log (y i) - Real.log (x i)) - (y i - x i)) := by
    have hA : A = ∑ i ∈ range S.na, y i * A := by rw [← sum_mul, hy.total, one_mul]
    have hxy : ∑ i ∈ range S.na, RT * (y i - x i) = 0 := by
      rw [← mul_sum, sum_sub_distrib, hy.total, h2, sub_self, mul_zero]
    calc ∑ i ∈ range S.na, y i * (mu i + RT * Real.log (y i)) - A
        = ∑ i ∈ range S.na, y i * (mu i + RT * Real.log (y i)) - ∑ i ∈ range S.na, y i * A
          - ∑ i ∈ range S.na, RT * (y i - x i) := by rw [← hA, hxy, sub_zero]
      _ = _ := by
        rw [← sum_sub_distrib, ← sum_sub_distrib, mul_sum]
        refine sum_congr rfl fun i hi => ?_
        cases hz : zero i
        · rw [(h1 i (mem_range.mp hi) hz).2]; simp only [Bool.false_eq_true, if_false]; ring
        · rw [hy.absent i (mem_range.mp hi) hz, h0 i (mem_range.mp hi) hz]; simp
  have nn : ∀ i ∈ range S.na, 0 ≤ (if zero i then 0 else y i * (Real.log (y i) - Real.log (x i)) - (y i - x i)) := by
    intro i hi
    cases hz : zero i
    · simp only [Bool.false_eq_true, if_false]
      linarith [gibbs_term (h1 i (mem_range.mp hi) hz).1 (hy.nonneg i (mem_range.mp hi))]
    · simp
  refine ⟨by have := mul_nonneg hRT.le (sum_nonneg nn); linarith, fun heq i hi => ?_⟩
  rw [← heq, sub_self] at e
  have hs : ∑ i ∈ range S.na, (if zero i then 0 else y i * (Real.log (y i) - Real.log (x i)) - (y i - x i)) = 0 := by
    rcases mul_eq_zero.mp e.symm with h | h
    · exact absurd h hRT.ne'
    · exact h
  have := (sum_eq_zero_iff_of_nonneg nn).mp hs i (mem_range.mpr hi)
  cases hz : zero i
  · rw [hz] at this
    simp only [Bool.false_eq_true, if_false] at this
    by_contra hne
    linarith [gibbs_term_lt (h1 i hi hz).1 (hy.nonneg i hi) hne]
  · rw [hy.absent i hi hz, h0 i hi hz]

variable {S : Soln} {zero : ℕ → Bool} {mu : ℕ → ℝ} {T P : ℝ} {h0 : ℕ → ℝ} {retry : Option ((ℕ → ℝ) × (ℕ → ℝ))}

/-- The error in the affinity, in joules: 0.001 for the difference of the returned values from the point the solver
tested, 1000/8192 for the residuals there. -/
def tol : ℝ := 1 / 1000 + 1000 / 8192

/-- **C71.** The returned affinity is the energy, relative to the liquid, of one mole of some admissible composition of
the phase: if the affinity is negative by more than the tolerance, the phase is supersaturated. `frac` are the mole
fractions of a composition. -/
theorem C71_supersaturated {A : ℝ} {r : ℕ → ℝ} (h : getAffinity S T P zero mu h0 retry = some (A, r))
    (frac : (ℕ → ℝ) → ℕ → ℝ) (hfrac : ∀ r, S.test r = true → (∀ i < S.na, 0 ≤ frac r i) ∧ ∑ i ∈ range S.na, frac r i = 1)
    (hz : ∀ i < S.na, zero i = false) :
    ∃ r', S.test r' = true ∧ (∀ i < S.na - 1, |r i - r' i| ≤ S.na / 10 ^ 6 + 20 * eps) ∧
      |∑ i ∈ range S.na, frac r' i * (mu i + Magma.Thermo.MuO2.R * T * Real.log (S.act r' i)) - A| ≤ tol := by
  obtain ⟨A', r', h1, h2, h3, h4⟩ := C71_affinity h
  refine ⟨r', h1, h3, ?_⟩
  obtain ⟨f1, f2⟩ := hfrac r' h1
  have key : |∑ i ∈ range S.na, frac r' i * (mu i + Magma.Thermo.MuO2.R * T * Real.log (S.act r' i)) - A'| ≤ 1000 / 8192 := by
    have e : ∑ i ∈ range S.na, frac r' i * (mu i + Magma.Thermo.MuO2.R * T * Real.log (S.act r' i)) - A'
        = ∑ i ∈ range S.na, frac r' i * ((mu i + Magma.Thermo.MuO2.R * T * Real.log (S.act r' i)) - A') := by
      simp only [mul_sub, sum_sub_distrib]
      rw [← sum_mul, f2, one_mul]
    rw [e]
    calc _ ≤ ∑ i ∈ range S.na, |frac r' i * ((mu i + Magma.Thermo.MuO2.R * T * Real.log (S.act r' i)) - A')| :=
          abs_sum_le_sum_abs _ _
      _ ≤ ∑ i ∈ range S.na, frac r' i * (1000 / 8192) := sum_le_sum fun i hi => by
          have hi := mem_range.mp hi
          rw [abs_mul, abs_of_nonneg (f1 i hi), abs_sub_comm]
          exact mul_le_mul_of_nonneg_left (h4 i hi (hz i hi)) (f1 i hi)
      _ = 1000 / 8192 := by rw [← sum_mul, f2, one_mul]
  have : ∀ X : ℝ, X - A = (X - A') + (A' - A) := fun X => by ring
  rw [this]
  refine (abs_add_le _ _).trans ?_
  rw [abs_sub_comm A' A]
  unfold tol
  linarith

/-- **C71.** Conversely, in a phase whose energy surface lies above its tangent planes (a phase without a solvus), the
returned affinity is, up to the tolerance, the least energy of any composition: if it is positive by more than the
tolerance, no composition is saturated. The tangent plane at `r` has the height `∑ y_i RT ln a_i(r)` at the composition
with fractions `y`. -/
theorem C71_undersaturated {A : ℝ} {r : ℕ → ℝ} (h : getAffinity S T P zero mu h0 retry = some (A, r))
    (frac : (ℕ → ℝ) → ℕ → ℝ)
    (htan : ∀ r s, S.test r = true → S.test s = true →
      ∑ i ∈ range S.na, frac s i * Real.log (S.act r i) ≤ ∑ i ∈ range S.na, frac s i * Real.log (S.act s i))
    {s : ℕ → ℝ} (hs : S.test s = true) (hy : IsComp S.na zero (frac s)) :
    A - tol ≤ ∑ i ∈ range S.na, frac s i * (mu i + Magma.Thermo.MuO2.R * T * Real.log (S.act s i)) := by
  obtain ⟨A', r', h1, h2, -, h4⟩ := C71_affinity h
  have hT := (getAffinity_cases h).1
  have hR : 0 ≤ Magma.Thermo.MuO2.R * T := by
    have : (0 : ℝ) < Magma.Thermo.MuO2.R := by unfold Magma.Thermo.MuO2.R; norm_num
    positivity
  have k1 : A' - 1000 / 8192 ≤ ∑ i ∈ range S.na, frac s i * (mu i + Magma.Thermo.MuO2.R * T * Real.log (S.act r' i)) := by
    calc A' - 1000 / 8192 = ∑ i ∈ range S.na, frac s i * (A' - 1000 / 8192) := by rw [← sum_mul, hy.total, one_mul]
      _ ≤ _ := sum_le_sum fun i hi => by
        have hi := mem_range.mp hi
        cases hz : zero i
        · have := (abs_le.mp (h4 i hi hz)).2
          exact mul_le_mul_of_nonneg_left (by linarith) (hy.nonneg i hi)
        · rw [hy.absent i hi hz]; simp
  have k2 := mul_le_mul_of_nonneg_left (htan r' s h1 hs) hR
  have e : ∀ q : ℕ → ℝ, ∑ i ∈ range S.na, frac s i * (mu i + Magma.Thermo.MuO2.R * T * q i)
      = ∑ i ∈ range S.na, frac s i * mu i + Magma.Thermo.MuO2.R * T * ∑ i ∈ range S.na, frac s i * q i := by
    intro q
    rw [mul_sum, ← sum_add_distrib]
    exact sum_congr rfl fun i _ => by ring
  rw [e] at k1 ⊢
  have := (abs_le.mp h2).2
  unfold tol
  linarith

/-! ### The ideal solution -/

/-- A phase whose activities are its mole fractions, and whose conversion routine inverts them. -/
structure Ideal (S : Soln) (frac : (ℕ → ℝ) → ℕ → ℝ) : Prop where
  loc : ∀ r r' : ℕ → ℝ, (∀ j < S.na - 1, r j = r' j) → S.test r = S.test r' ∧ ∀ i < S.na, S.act r i = S.act r' i
  act : ∀ r, ∀ i < S.na, S.act r i = frac r i
  conv : ∀ x, IsComp S.na (fun _ => false) x → S.test (S.conv x) = true ∧ ∀ i < S.na, frac (S.conv x) i = x i

/-- **C71.** For an ideal solution no iteration is needed: the routine succeeds, whatever the temperature, the pressure
and the potentials, and returns the first guess (`C71_guess`, `C71_guess_minimum`) exactly. -/
theorem C71_ideal {frac : (ℕ → ℝ) → ℕ → ℝ} (hS : Ideal S frac) (hna : 0 < S.na) (hT : 0 < T) (hP : 0 ≤ P)
    (hz : ∀ i < S.na, zero i = false) :
    ∃ r, getAffinity S T P zero mu h0 retry = some (guessAffinity S (Magma.Thermo.MuO2.R * T) zero mu, r) ∧
      ∀ i < S.na - 1, r i = S.conv (guessFrac S (Magma.Thermo.MuO2.R * T) zero mu) i := by
  have hR : 0 < Magma.Thermo.MuO2.R * T := by
    have : (0 : ℝ) < Magma.Thermo.MuO2.R := by unfold Magma.Thermo.MuO2.R; norm_num
    positivity
  set RT := Magma.Thermo.MuO2.R * T with hRT
  have hnull : nulls S.na zero = [] := by
    unfold nulls
    rw [List.filter_eq_nil_iff]
    intro a ha
    simp [hz a (List.mem_range.mp ha)]
  have hlen : (live S.na zero).length = S.na := by
    have := nulls_length S.na zero
    rw [hnull] at this
    simpa using this
  obtain ⟨x0, hx0⟩ : ∃ x0, x0 = guessFrac S RT zero mu := ⟨_, rfl⟩
  obtain ⟨g0, g1, g2⟩ := C71_guess S RT zero mu hR.ne' ⟨0, hna, hz 0 hna⟩
  have hc : IsComp S.na (fun _ => false) x0 := by
    have := guess_isComp S zero mu hR.ne' ⟨0, hna, hz 0 hna⟩
    rw [hx0]
    exact ⟨this.nonneg, fun i hi h => by simp at h, this.total⟩
  obtain ⟨hb1, hb2⟩ := hS.conv x0 hc
  set f := frame S zero h0 (S.conv x0) with hf
  have hne : f.ne = 0 := by rw [hf]; simp [frame, hnull]
  have hpt : ∀ z, f.point z = z := fun z => by unfold Frame.point; rw [if_pos hne]
  obtain ⟨z0, hz0⟩ : ∃ z0 : ℕ → ℝ, z0 = fun i => if i < (live S.na zero).length - 1 then
      chain f.F.1 f.F.2 f.nr f.ne (S.conv x0) (f.ne + i)
      else idealAffinity RT (fun k => mu ((live S.na zero).getD k 0)) (live S.na zero).length := ⟨_, rfl⟩
  have z1 : ∀ j < S.na - 1, z0 j = S.conv x0 j := by
    intro j hj
    rw [hz0]
    simp only [hlen, hj, if_true, hne, chain, Nat.zero_add]
  have z2 : z0 (S.na - 1) * SCALE = guessAffinity S RT zero mu := by
    rw [hz0]
    simp only [hlen, lt_irrefl, if_false]
    unfold guessAffinity
    rw [hlen]
  obtain ⟨Q, hQ⟩ : ∃ Q, Q = problem S RT zero mu f (1 / 10 ^ 6) := ⟨_, rfl⟩
  have ht : S.test z0 = true := by rw [(hS.loc z0 (S.conv x0) z1).1]; exact hb1
  have res : ∀ i < S.na, Q.res z0 i = some 0 := by
    intro i hi
    have hm : (live S.na zero).getD i 0 < S.na ∧ zero ((live S.na zero).getD i 0) = false := live_mem zero (by omega)
    have ha : S.act z0 ((live S.na zero).getD i 0) = x0 ((live S.na zero).getD i 0) := by
      rw [(hS.loc z0 (S.conv x0) z1).2 _ hm.1, hS.act _ _ hm.1, hb2 _ hm.1]
    rw [hQ]
    simp only [problem, hpt, ht, if_true, ha, hlen, z2]
    rw [(g1 _ hm.1 hm.2).2, ← hx0]
    simp only [Option.some.injEq]
    ring
  have hm : Q.m = S.na := by rw [hQ]; exact hlen
  have hn : Q.n = S.na := by rw [hQ]; exact hlen
  have hq : Modmrt.eval Q z0 = some fun i => (Q.res z0 i).getD 0 := by
    unfold Modmrt.eval
    rw [if_pos]
    intro i hi
    rw [res i (by omega)]; rfl
  have hrel : Q.reltest = 1 / 10 ^ 6 := by rw [hQ]; rfl
  obtain ⟨s, s1, s2, s3⟩ := Modmrt.C53_stationary (by omega) (by rw [hrel]; positivity) hq
    (fun i _ => sum_eq_zero fun q hq => by
      rw [hm] at hq
      simp only [res q (mem_range.mp hq), Option.getD_some, mul_zero]) Q.maxIter
  have s2' : s.fmin = 0 := by
    rw [s2]
    unfold Modmrt.ssq
    refine sum_eq_zero fun q hq => ?_
    rw [hm] at hq
    simp only [res q (mem_range.mp hq), Option.getD_some]
    norm_num
  have hso : solveOnce Q z0 = some (s.b, s.fmin) := by
    unfold solveOnce
    rw [s1]
  have hsm : ¬ (0 > small) := by unfold small; exact not_lt.mpr (Real.sqrt_nonneg _)
  refine ⟨s.b, ?_, fun i hi => by rw [s3 i (by omega), z1 i hi, hx0]⟩
  unfold getAffinity
  simp only
  rw [if_neg (by push Not; exact ⟨hT, hP, by omega⟩), ← hRT, ← hx0, ← hf, ← hz0, ← hQ, hso]
  simp only [s2', hsm, if_false]
  rw [hpt, hlen, s3 _ (by omega), z2]

/-! ### The hypotheses are met -/

/-- A binary ideal solution; `r 0` is the fraction of the second end member. -/
def binary : Soln where
  na := 2
  conv := fun x _ => x 1
  dxdr := fun _ i _ => if i = 0 then -1 else 1
  act := fun r i => if i = 0 then 1 - r 0 else r 0
  dact := fun _ i _ => if i = 0 then -1 else 1
  test := fun r => decide (0 ≤ r 0 ∧ r 0 ≤ 1)

/-- Its mole fractions. -/
def binaryFrac (r : ℕ → ℝ) (i : ℕ) : ℝ := if i = 0 then 1 - r 0 else r 0

theorem binary_ideal : Ideal binary binaryFrac where
  loc := fun r r' h => by
    have h0 : r 0 = r' 0 := h 0 (by simp [binary])
    simp [binary, h0]
  act := fun r i _ => rfl
  conv := fun x hx => by
    have t := hx.total
    have n0 := hx.nonneg 0 (by simp [binary])
    have n1 := hx.nonneg 1 (by simp [binary])
    simp only [binary, sum_range_succ, range_zero, sum_empty, zero_add] at t
    refine ⟨by simp only [binary, decide_eq_true_eq]; constructor <;> linarith, fun i hi => ?_⟩
    simp only [binary] at hi
    unfold binaryFrac binary
    have : i = 0 ∨ i = 1 := by omega
    rcases this with rfl | rfl
    · simp; linarith
    · simp

/-- `C71_affinity`, `C71_supersaturated` and `C71_undersaturated` apply to the binary solution at 1000 K and 1 bar. -/
example : ∃ A r, getAffinity binary 1000 1 (fun _ => false) (fun i => if i = 0 then 100 else -2000) 0 none = some (A, r) := by
  obtain ⟨r, h, -⟩ := C71_ideal (T := 1000) (P := 1) (zero := fun _ => false) (mu := fun i => if i = 0 then 100 else -2000)
    (h0 := 0) (retry := none) binary_ideal (by simp [binary]) (by norm_num) (by norm_num) (fun _ _ => rfl)
  exact ⟨_, r, h⟩

example : ∀ r, binary.test r = true → (∀ i < binary.na, 0 ≤ binaryFrac r i) ∧ ∑ i ∈ range binary.na, binaryFrac r i = 1 := by
  intro r h
  simp only [binary, decide_eq_true_eq] at h
  refine ⟨fun i _ => by unfold binaryFrac; split_ifs <;> linarith, ?_⟩
  simp [binary, binaryFrac, sum_range_succ]

/-- Away from the pure end members, the energy surface of the binary ideal solution lies above its tangent planes. -/
example : let S := { binary with test := fun r => decide (0 < r 0 ∧ r 0 < 1) }
    ∀ r s, S.test r = true → S.test s = true →
      ∑ i ∈ range S.na, binaryFrac s i * Real.log (S.act r i) ≤ ∑ i ∈ range S.na, binaryFrac s i * Real.log (S.act s i) := by
  intro S r s hr hs
  simp only [S, decide_eq_true_eq] at hr hs
  simp only [S, binary, binaryFrac, sum_range_succ, range_zero, sum_empty, zero_add, if_true, one_ne_zero, if_false]
  have h1 := gibbs_term (x := 1 - r 0) (y := 1 - s 0) (by linarith) (by linarith)
  have h2 := gibbs_term (x := r 0) (y := s 0) (by linarith) (by linarith)
  nlinarith

/-- `C71_excluded` applies with the second end member excluded: the routine succeeds. -/
example (mu h0 : ℕ → ℝ) : ∃ A r, getAffinity binary 1000 1 (fun i => decide (i = 1)) mu h0 none = some (A, r) := by
  set zero : ℕ → Bool := fun i => decide (i = 1) with hzero
  have hlive : live 2 zero = [0] := by rw [hzero]; simp [live, List.range_succ]
  have hnull : nulls 2 zero = [1] := by rw [hzero]; simp [nulls, List.range_succ]
  set RT := Magma.Thermo.MuO2.R * 1000
  have hb : binary.conv (guessFrac binary RT zero mu) = fun _ => 0 := by
    funext i
    have := guessFrac_eq binary RT zero mu 1 (by simp [binary])
    simp [hzero] at this
    simpa [binary] using this
  set f := frame binary zero h0 (fun _ => 0) with hf
  have hne : f.ne = 1 := by rw [hf]; simp [frame, binary, hnull]
  have hnr : f.nr = 1 := by rw [hf]; simp [frame, binary]
  have hF : f.F = decomp f.ne f.nr f.ne (fun i => binary.dxdr (fun _ => 0) ((nulls 2 zero).getD i 0), h0) := rfl
  have hch : chain f.F.1 f.F.2 f.nr f.ne (fun _ => 0) 0 = 0 := by
    have := Reduced.chain_sum f.F.1 f.F.2 f.nr (by omega) f.ne 0 (fun _ => 0) (fun _ _ => 0) 0 (by omega)
    simpa using this
  have hy : f.y 0 = 0 := by
    have : f.y = clean (chain f.F.1 f.F.2 f.nr f.ne (fun _ => 0)) := rfl
    rw [this]; unfold clean; rw [hch]; simp
  have hpt : ∀ z, f.point z 0 = 0 := by
    intro z
    unfold Frame.point
    rw [if_neg (by omega)]
    unfold clean
    have : back f.F.1 f.F.2 f.nr f.ne (fun i => if i < f.ne then f.y i else z (i - f.ne)) 0 = 0 := by
      rw [hF, back_apply f.ne f.nr _ (by omega) _ 0 (by omega)]
      unfold dot
      rw [hnr, sum_range_one, hne]
      simp [hy]
    rw [this]; simp
  obtain ⟨Q, hQ⟩ : ∃ Q, Q = problem binary RT zero mu f (1 / 10 ^ 6) := ⟨_, rfl⟩
  have hl : live binary.na zero = [0] := hlive
  obtain ⟨z0, hz0⟩ : ∃ z0 : ℕ → ℝ, z0 = fun i => if i < (live binary.na zero).length - 1 then
      chain f.F.1 f.F.2 f.nr f.ne (fun _ => 0) (f.ne + i)
      else idealAffinity RT (fun k => mu ((live binary.na zero).getD k 0)) (live binary.na zero).length := ⟨_, rfl⟩
  have hz00 : z0 0 * SCALE = mu 0 := by
    rw [hz0]
    simp [hl, idealAffinity, SCALE]
  have res : Q.res z0 0 = some 0 := by
    have ht : binary.test (f.point z0) = true := by simp [binary, hpt]
    rw [hQ]
    simp only [problem, ht, if_true, hl]
    have ha : binary.act (f.point z0) 0 = 1 := by simp [binary, hpt]
    simp [ha, hz00]
  have hm : Q.m = 1 := by rw [hQ]; simp [problem, hl]
  have hn : Q.n = 1 := by rw [hQ]; simp [problem, hl]
  have hq : Modmrt.eval Q z0 = some fun i => (Q.res z0 i).getD 0 := by
    unfold Modmrt.eval
    rw [if_pos]
    intro i hi
    have : i = 0 := by omega
    rw [this, res]; rfl
  have hrel : Q.reltest = 1 / 10 ^ 6 := by rw [hQ]; rfl
  obtain ⟨s, s1, s2, s3⟩ := Modmrt.C53_stationary (by omega) (by rw [hrel]; positivity) hq
    (fun i _ => by rw [hm, sum_range_one]; simp [res]) Q.maxIter
  have s2' : s.fmin = 0 := by rw [s2]; unfold Modmrt.ssq; rw [hm, sum_range_one]; simp [res]
  have hso : solveOnce Q z0 = some (s.b, s.fmin) := by
    unfold solveOnce
    rw [s1]
  have hsm : ¬ (0 > small) := by unfold small; exact not_lt.mpr (Real.sqrt_nonneg _)
  refine ⟨s.b 0 * SCALE, f.point s.b, ?_⟩
  unfold getAffinity
  simp only
  rw [if_neg (by rw [hl]; norm_num), hb, ← hf, ← hz0, ← hQ, hso]
  simp only [s2', hsm, if_false]
  rw [hl]
  rfl

example : (∀ r r' i, i < binary.na → binaryFrac r i - binaryFrac r' i
      = ∑ j ∈ range (binary.na - 1), (if i = 0 then -1 else 1 : ℝ) * (r j - r' j)) := by
  intro r r' i _
  simp only [binary, binaryFrac, Nat.add_one_sub_one, sum_range_one]
  split_ifs <;> ring

example : IsComp binary.na (fun i => decide (i = 1)) (fun i => if i = 0 then 1 else 0) :=
  ⟨fun i _ => by split_ifs <;> norm_num, fun i _ h => by simp at h; simp [h],
    by simp [binary]⟩

end

end Magma.Engine.Saturation
