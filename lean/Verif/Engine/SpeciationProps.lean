import Mathlib.Analysis.Calculus.Deriv.Pow
import Mathlib.Analysis.Complex.ExponentialBounds
import Verif.Engine.Speciation

/-!
C72: the affinity of absent feldspar and pyroxenes by successive substitution.
-/

namespace Magma.Engine.Saturation

open Finset Magma.Num

noncomputable section

/-- A carrier for the number of species. -/
def bare (n : ℕ) : Soln where
  na := n
  conv := fun _ => 0
  dxdr := fun _ _ => 0
  act := fun _ => 0
  dact := fun _ _ => 0
  test := fun _ => false

theorem condense_spec (RT : ℝ) (zero : ℕ → Bool) (n : ℕ) (g : ℕ → ℝ) :
    (condense RT zero n g).1 = (live n zero).length ∧ ∀ k, (condense RT zero n g).2 k =
      if k < (live n zero).length then RT * Real.log (g ((live n zero).getD k 0)) else g k := by
  induction n with
  | zero => simp [condense, live]
  | succ n ih =>
    obtain ⟨ih1, ih2⟩ := ih
    have hle := live_le n zero
    cases h : zero n
    · rw [live_succ, h]
      simp only [condense, h, Bool.false_eq_true, if_false, List.length_append, List.length_singleton]
      refine ⟨by rw [ih1], fun k => ?_⟩
      rw [ih1]
      rcases lt_trichotomy k (live n zero).length with hk | hk | hk
      · rw [Function.update_of_ne (by omega), ih2, if_pos hk, if_pos (by omega), List.getD_append _ _ _ _ hk]
      · subst hk
        rw [Function.update_self, ih2, if_neg (by omega), if_pos (by omega)]
        simp
      · rw [Function.update_of_ne (by omega), ih2, if_neg (by omega), if_neg (by omega)]
    · rw [live_succ, h]
      simp only [condense, h, if_true, List.append_nil]
      exact ⟨ih1, ih2⟩

/-- Potentials with the activity coefficients of the last pass. -/
def Scheme.muG (Q : Scheme) (RT : ℝ) (g : ℕ → ℝ) (i : ℕ) : ℝ := Q.mu i + RT * Real.log (g i)

theorem frac_eq (Q : Scheme) (RT : ℝ) (g : ℕ → ℝ) (h2 : 2 ≤ (live Q.ns Q.zero).length) (k : ℕ)
    (hk : k < (live Q.ns Q.zero).length) : Q.frac RT g k =
      idealFrac RT (fun k => Q.muG RT g ((live Q.ns Q.zero).getD k 0)) (live Q.ns Q.zero).length k := by
  unfold Scheme.frac
  rw [idealFrac_eq _ hk, idealFrac_eq _ hk]
  have e : ∀ k < (live Q.ns Q.zero).length, Q.mu ((live Q.ns Q.zero).getD k 0) + Q.gOf RT g k
      = Q.muG RT g ((live Q.ns Q.zero).getD k 0) := by
    intro k hk
    unfold Scheme.gOf Scheme.muG
    rw [if_neg (by omega), (condense_spec RT Q.zero Q.ns g).2, if_pos hk]
  rw [e k hk]
  congr 1
  exact sum_congr rfl fun j hj => by rw [e j (mem_range.mp hj)]

theorem expand_congr (zero : ℕ → Bool) (n : ℕ) (m m' : ℕ → ℝ) (h : ∀ k < (live n zero).length, m k = m' k) (i : ℕ)
    (hi : i < n) : expand zero n (live n zero).length m i = expand zero n (live n zero).length m' i := by
  rw [expand_spec, expand_spec, if_pos hi, if_pos hi]
  cases hz : zero i
  · simp only [Bool.false_eq_true, if_false]
    exact h _ (live_lt zero hi hz)
  · simp

/-- A pass computes the ideal guess of C71 with the potentials shifted by `RT ln gamma`. -/
theorem all_eq (Q : Scheme) (RT : ℝ) (g : ℕ → ℝ) (h2 : 2 ≤ (live Q.ns Q.zero).length) (i : ℕ) (hi : i < Q.ns) :
    Q.all RT g i = guessFrac (bare Q.ns) RT Q.zero (Q.muG RT g) i := by
  have e : guessFrac (bare Q.ns) RT Q.zero (Q.muG RT g) = if (live Q.ns Q.zero).length < Q.ns then
      expand Q.zero Q.ns (live Q.ns Q.zero).length
        (idealFrac RT (fun k => Q.muG RT g ((live Q.ns Q.zero).getD k 0)) (live Q.ns Q.zero).length)
      else idealFrac RT (fun k => Q.muG RT g ((live Q.ns Q.zero).getD k 0)) (live Q.ns Q.zero).length := rfl
  rw [e]
  unfold Scheme.all
  split_ifs with h
  · exact expand_congr _ _ _ _ (frac_eq Q RT g h2) i hi
  · exact frac_eq Q RT g h2 i (by omega)

theorem aff_eq (Q : Scheme) (RT : ℝ) (g : ℕ → ℝ) (h2 : 2 ≤ (live Q.ns Q.zero).length) :
    Q.aff RT g * SCALE = guessAffinity (bare Q.ns) RT Q.zero (Q.muG RT g) := by
  have e : guessAffinity (bare Q.ns) RT Q.zero (Q.muG RT g) =
      idealAffinity RT (fun k => Q.muG RT g ((live Q.ns Q.zero).getD k 0)) (live Q.ns Q.zero).length * SCALE := rfl
  rw [e]
  unfold Scheme.aff idealAffinity
  simp only
  rw [if_neg (by omega), if_neg (by omega), frac_eq Q RT g h2 0 (by omega)]
  congr 2
  unfold Scheme.gOf
  rw [if_neg (by omega), (condense_spec RT Q.zero Q.ns g).2, if_pos (by omega)]
  unfold Scheme.muG
  ring

theorem live_two {n : ℕ} {zero : ℕ → Bool} (h : 2 ≤ (live n zero).length) : ∃ i < n, zero i = false :=
  ⟨_, live_mem zero (k := 0) (by omega)⟩

/-- **C72.** Every pass solves the equations of the ideal solution with the activity coefficients `g` of the pass before
it: excluded species are absent, the others have positive fractions that sum to one, and `mu + RT ln (g x)` is the
affinity for each of them. -/
theorem C72_pass (Q : Scheme) {RT : ℝ} (hRT : RT ≠ 0) (s : Pass) (h2 : 2 ≤ (live Q.ns Q.zero).length) :
    (∀ i < Q.ns, Q.zero i = true → (Q.pass RT s).x i = 0) ∧
    (∀ i < Q.ns, Q.zero i = false → 0 < (Q.pass RT s).x i ∧
      (Q.pass RT s).aff * SCALE = Q.mu i + RT * Real.log (s.g i) + RT * Real.log ((Q.pass RT s).x i)) ∧
    ∑ i ∈ range Q.ns, (Q.pass RT s).x i = 1 := by
  obtain ⟨h0, h1, h3⟩ := C71_guess (bare Q.ns) RT Q.zero (Q.muG RT s.g) hRT (live_two h2)
  have e := all_eq Q RT s.g h2
  refine ⟨fun i hi hz => ?_, fun i hi hz => ?_, ?_⟩
  · rw [← h0 i hi hz, ← e i hi]; rfl
  · have hx : (Q.pass RT s).x i = guessFrac (bare Q.ns) RT Q.zero (Q.muG RT s.g) i := e i hi
    have ha : (Q.pass RT s).aff * SCALE = guessAffinity (bare Q.ns) RT Q.zero (Q.muG RT s.g) := aff_eq Q RT s.g h2
    rw [hx, ha]
    exact h1 i hi hz
  · rw [← h3]
    exact sum_congr rfl fun i hi => e i (mem_range.mp hi)

/-- The passes of a run, as long as they are made. -/
def Scheme.after (Q : Scheme) (RT : ℝ) : ℕ → Pass
  | 0 => first
  | k + 1 => Q.pass RT (Q.after RT k)

theorem after_iter (Q : Scheme) (RT : ℝ) (k : ℕ) : (Q.after RT k).iter = k := by
  induction k with
  | zero => rfl
  | succ k ih => simp only [Scheme.after, Scheme.pass, ih]

theorem loop_after (Q : Scheme) (RT : ℝ) (n k : ℕ) (h : ∀ j < k, (Q.after RT j).found = false) :
    ∃ m, Q.loop RT n (Q.after RT k) = Q.after RT m ∧ k ≤ m ∧ m ≤ k + n ∧ (∀ j < m, (Q.after RT j).found = false) ∧
      (m < k + n → (Q.after RT m).found = true) := by
  induction n generalizing k with
  | zero => exact ⟨k, rfl, le_rfl, le_rfl, h, fun h => absurd h (by omega)⟩
  | succ n ih =>
    cases hf : (Q.after RT k).found
    · have h' : ∀ j < k + 1, (Q.after RT j).found = false := by
        intro j hj
        rcases Nat.lt_succ_iff_lt_or_eq.mp hj with h1 | h1
        · exact h j h1
        · rw [h1]; exact hf
      obtain ⟨m, e, h1, h2, h3, h4⟩ := ih (k + 1) h'
      refine ⟨m, ?_, by omega, by omega, h3, fun hm => h4 (by omega)⟩
      rw [Scheme.loop, hf]
      exact e
    · refine ⟨k, ?_, le_rfl, by omega, h, fun _ => hf⟩
      rw [Scheme.loop, hf]; simp

/-- **C72.** The routine always returns after at most 100 passes, and it reports success exactly when two successive
affinities differed by less than 0.1 J before the 100th pass; what it returns is the last pass. -/
theorem C72_run (Q : Scheme) {T P : ℝ} (hT : 0 < T) (hP : 0 ≤ P) (hz : 0 < (live Q.ns Q.zero).length) :
    ∃ m, 1 ≤ m ∧ m ≤ 100 ∧
      Q.run T P = some ((Q.after (Magma.Thermo.MuO2.R * T) m).aff * SCALE,
        Q.point (Q.after (Magma.Thermo.MuO2.R * T) m).x, decide (m < 100)) ∧
      (∀ j < m, (Q.after (Magma.Thermo.MuO2.R * T) j).found = false) ∧
      (m < 100 → |(Q.after (Magma.Thermo.MuO2.R * T) (m - 1)).aff * SCALE
        - (Q.after (Magma.Thermo.MuO2.R * T) m).aff * SCALE| < 1 / 10) := by
  obtain ⟨m, e, -, h2, h3, h4⟩ := loop_after Q (Magma.Thermo.MuO2.R * T) 100 0 (fun j hj => by omega)
  have hm : 1 ≤ m := by
    by_contra hlt
    have : m = 0 := by omega
    subst this
    have := h4 (by omega)
    simp [Scheme.after, first] at this
  refine ⟨m, hm, by omega, ?_, h3, fun hlt => ?_⟩
  · unfold Scheme.run
    rw [if_neg (by push Not; exact ⟨hT, hP, by omega⟩)]
    simp only
    rw [show first = Q.after (Magma.Thermo.MuO2.R * T) 0 from rfl, e, after_iter]
  · obtain ⟨k, rfl⟩ : ∃ k, m = k + 1 := ⟨m - 1, by omega⟩
    have := h4 (by omega)
    simp only [Scheme.after, Scheme.pass, decide_eq_true_eq] at this
    rw [← sub_mul, abs_mul, SCALE, abs_of_pos (by norm_num : (0 : ℝ) < 1000)]
    simp only [Nat.add_sub_cancel, Scheme.after, Scheme.pass]
    rw [SCALE] at this
    linarith

/-! ### Feldspar -/

variable (S : Soln) (zero : ℕ → Bool) (mu : ℕ → ℝ)

/-- Activity coefficient of an end member at a composition given by mole fractions. -/
def coeff (S : Soln) (x : ℕ → ℝ) (i : ℕ) : ℝ := S.act (S.conv x) i / x i

/-- **C72.** When the generic routine reports success for a phase of at least two end members, the returned composition
has the fractions `x`, those of the pass before are `y`, and for every end member that is not excluded the affinity is
`mu + RT ln x` plus `RT` times the logarithm of the activity coefficient at `y`. So the true potentials at the returned
composition miss the affinity by exactly `RT ln (gamma(x)/gamma(y))`, which the routine does not look at. (The
alternative, an affinity of 10^8 J, is the initial value of the variable.) -/
theorem C72_generic {T P A : ℝ} {r : ℕ → ℝ} (h2 : 2 ≤ (live S.na zero).length)
    (h : (generic S zero mu).run T P = some (A, r, true)) :
    |A - 10 ^ 8| < 1 / 10 ∨ ∃ x y : ℕ → ℝ, IsComp S.na zero x ∧ IsComp S.na zero y ∧ r = S.conv x ∧
      ∀ i < S.na, zero i = false → 0 < x i ∧ 0 < y i ∧
        A = mu i + Magma.Thermo.MuO2.R * T * Real.log (x i) + Magma.Thermo.MuO2.R * T * Real.log (coeff S y i) ∧
        (0 < S.act r i → 0 < S.act (S.conv y) i →
          mu i + Magma.Thermo.MuO2.R * T * Real.log (S.act r i) - A
            = Magma.Thermo.MuO2.R * T * Real.log (coeff S x i / coeff S y i)) := by
  set Q := generic S zero mu with hQ
  set RT := Magma.Thermo.MuO2.R * T with hRTd
  have hT : 0 < T ∧ 0 ≤ P := by
    unfold Scheme.run at h
    split_ifs at h with hc
    push Not at hc
    exact ⟨hc.1, hc.2.1⟩
  have hRT : RT ≠ 0 := by
    have : (0 : ℝ) < Magma.Thermo.MuO2.R := by unfold Magma.Thermo.MuO2.R; norm_num
    have := hT.1
    rw [hRTd]; positivity
  have h2' : 2 ≤ (live Q.ns Q.zero).length := h2
  obtain ⟨m, m1, m2, m3, m4, m5⟩ := C72_run Q hT.1 hT.2 (by omega)
  rw [m3] at h
  injection h with h
  injection h with hA h
  injection h with hr hm
  have hm' : m < 100 := by simpa using hm
  obtain ⟨k, rfl⟩ : ∃ k, m = k + 1 := ⟨m - 1, by omega⟩
  rcases Nat.eq_zero_or_pos k with hk | hk
  · left
    subst hk
    have := m5 hm'
    rw [hA, abs_sub_comm] at this
    simpa [Scheme.after, first, SCALE, show (100000 : ℝ) * 1000 = 10 ^ 8 by norm_num] using this
  · right
    obtain ⟨l, rfl⟩ : ∃ l, k = l + 1 := ⟨k - 1, by omega⟩
    obtain ⟨p0, p1, p2⟩ := C72_pass Q hRT (Q.after RT l) h2'
    obtain ⟨q0, q1, q2⟩ := C72_pass Q hRT (Q.after RT (l + 1)) h2'
    have hnf := m4 (l + 1) (by omega)
    have comp : ∀ x : ℕ → ℝ, (∀ i < S.na, zero i = true → x i = 0) → (∀ i < S.na, zero i = false → 0 < x i) →
        ∑ i ∈ range S.na, x i = 1 → IsComp S.na zero x := by
      intro x a b c
      refine ⟨fun i hi => ?_, a, c⟩
      cases hz : zero i
      · exact (b i hi hz).le
      · exact (a i hi hz).ge
    refine ⟨(Q.pass RT (Q.after RT (l + 1))).x, (Q.pass RT (Q.after RT l)).x,
      comp _ q0 (fun i hi hz => (q1 i hi hz).1) q2, comp _ p0 (fun i hi hz => (p1 i hi hz).1) p2, hr.symm, ?_⟩
    intro i hi hz
    obtain ⟨x1, x2⟩ := q1 i hi hz
    have y1 := (p1 i hi hz).1
    have hg : (Q.after RT (l + 1)).g i = coeff S (Q.pass RT (Q.after RT l)).x i := by
      have hf : (Q.pass RT (Q.after RT l)).found = false := hnf
      have : (Q.after RT (l + 1)).g = Q.next (Q.pass RT (Q.after RT l)).x (Q.gOf RT (Q.after RT l).g) := by
        simp only [Scheme.after]
        unfold Scheme.pass at hf ⊢
        simp only at hf ⊢
        rw [hf]; simp
      rw [this]
      simp only [hQ, generic]
      rw [if_pos ⟨hi, by rw [hQ] at y1; exact y1.ne'⟩]
      rfl
    have eA : A = mu i + RT * Real.log ((Q.pass RT (Q.after RT (l + 1))).x i)
        + RT * Real.log (coeff S (Q.pass RT (Q.after RT l)).x i) := by
      rw [← hg, ← hA]
      change (Q.pass RT (Q.after RT (l + 1))).aff * SCALE = _
      rw [x2]
      change mu i + _ + _ = _
      ring
    refine ⟨x1, y1, eA, fun ax ay => ?_⟩
    have hr' : r = S.conv (Q.pass RT (Q.after RT (l + 1))).x := hr.symm
    have c1 : 0 < coeff S (Q.pass RT (Q.after RT l)).x i := div_pos ay y1
    have c2 : S.act r i = coeff S (Q.pass RT (Q.after RT (l + 1))).x i * (Q.pass RT (Q.after RT (l + 1))).x i := by
      unfold coeff; rw [hr', div_mul_cancel₀ _ x1.ne']
    have c3 : 0 < coeff S (Q.pass RT (Q.after RT (l + 1))).x i := by
      unfold coeff; rw [← hr']; exact div_pos ax x1
    rw [c2, Real.log_mul c3.ne' x1.ne', Real.log_div c3.ne' c1.ne', eA]
    ring

end

end Magma.Engine.Saturation
