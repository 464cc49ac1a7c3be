import Mathlib.Data.List.GetD
import Verif.Engine.Saturation

/-!
C71: the affinity and composition reported for an absent phase.
-/

namespace Magma.Engine.Saturation

open Finset Magma.Num Magma.Num.Householder Magma.Num.Constraint

noncomputable section

/-! ### The end members that take part -/

theorem live_succ (n : ℕ) (zero : ℕ → Bool) : live (n + 1) zero = live n zero ++ if zero n then [] else [n] := by
  unfold live
  rw [List.range_succ, List.filter_append]
  cases h : zero n <;> simp [h]

theorem live_le (n : ℕ) (zero : ℕ → Bool) : (live n zero).length ≤ n := by
  unfold live
  exact (List.length_filter_le _ _).trans (by simp)

theorem live_lt {n i : ℕ} (zero : ℕ → Bool) (hi : i < n) (hz : zero i = false) : (live i zero).length < (live n zero).length := by
  induction n with
  | zero => omega
  | succ n ih =>
    rw [live_succ, List.length_append]
    rcases Nat.lt_succ_iff_lt_or_eq.mp hi with h | h
    · have := ih h; omega
    · subst h; simp [hz]

theorem live_getD {n i : ℕ} (zero : ℕ → Bool) (hi : i < n) (hz : zero i = false) : (live n zero).getD (live i zero).length 0 = i := by
  induction n with
  | zero => omega
  | succ n ih =>
    rw [live_succ]
    rcases Nat.lt_succ_iff_lt_or_eq.mp hi with h | h
    · rw [List.getD_append _ _ _ _ (live_lt zero h hz)]; exact ih h
    · subst h; simp [hz]

theorem live_mem {n k : ℕ} (zero : ℕ → Bool) (hk : k < (live n zero).length) :
    (live n zero).getD k 0 < n ∧ zero ((live n zero).getD k 0) = false := by
  rw [List.getD_eq_getElem _ _ hk]
  have := List.getElem_mem hk
  unfold live at this
  rw [List.mem_filter, List.mem_range] at this
  have h2 : zero (live n zero)[k] = false := by
    have h := this.2
    change (!zero (live n zero)[k]) = true at h
    simpa using h
  exact ⟨this.1, h2⟩

theorem sum_live (n : ℕ) (zero : ℕ → Bool) (g : ℕ → ℝ) :
    ∑ k ∈ range (live n zero).length, g ((live n zero).getD k 0) = ∑ i ∈ range n, if zero i then 0 else g i := by
  induction n with
  | zero => rfl
  | succ n ih =>
    rw [sum_range_succ, ← ih, live_succ]
    have e : ∑ k ∈ range (live n zero).length, g ((live n zero ++ if zero n then [] else [n]).getD k 0)
        = ∑ k ∈ range (live n zero).length, g ((live n zero).getD k 0) :=
      sum_congr rfl fun k hk => by rw [List.getD_append _ _ _ _ (mem_range.mp hk)]
    cases h : zero n
    · simp only [h, Bool.false_eq_true, if_false] at e ⊢
      rw [List.length_append, List.length_singleton, sum_range_succ, e]
      simp
    · simp

theorem nulls_length (n : ℕ) (zero : ℕ → Bool) : (nulls n zero).length + (live n zero).length = n := by
  unfold nulls live
  have := List.length_eq_length_filter_add (l := List.range n) (fun i => zero i)
  rw [List.length_range] at this
  simpa using this.symm

/-! ### The first guess -/

theorem idealFrac_eq {RT : ℝ} (mu : ℕ → ℝ) {nz i : ℕ} (hi : i < nz) :
    idealFrac RT mu nz i = Real.exp (-mu i / RT) / ∑ k ∈ range nz, Real.exp (-mu k / RT) := by
  unfold idealFrac
  by_cases h1 : nz = 1
  · subst h1
    rw [if_pos rfl, sum_range_one]
    have : i = 0 := by omega
    subst this
    rw [div_self (Real.exp_pos _).ne']
  rw [if_neg h1]
  obtain ⟨n, rfl⟩ : ∃ n, nz = n + 2 := ⟨nz - 2, by omega⟩
  simp only [Nat.add_sub_cancel, show n + 2 - 1 = n + 1 from rfl]
  obtain ⟨a, ha⟩ : ∃ a : ℕ → ℝ, a = fun k => Real.exp (-mu k / RT) := ⟨_, rfl⟩
  have pos : ∀ k, 0 < a k := fun k => by rw [ha]; exact Real.exp_pos _
  have d : ∀ k l, Real.exp (-(mu k - mu l) / RT) = a k / a l := by
    intro k l
    rw [ha]
    simp only
    rw [← Real.exp_sub]
    congr 1
    ring
  have d' : ∀ k, Real.exp (-mu k / RT) = a k := fun k => by rw [ha]
  simp only [d, d']
  rw [← sum_div, ← sum_mul, ← sum_div, sum_range_succ, sum_range_succ]
  have hs : 0 ≤ ∑ k ∈ range n, a k := sum_nonneg fun k _ => (pos k).le
  set s := ∑ k ∈ range n, a k
  have p1 := pos n
  have p2 := pos (n + 1)
  have e : a n / a (n + 1) / (1 + a n / a (n + 1) * (1 + s / a n)) = a n / (s + a n + a (n + 1)) := by
    field_simp
    ring
  rw [e]
  split_ifs with h h'
  · field_simp
  · subst h'; rfl
  · have : i = n + 1 := by omega
    subst this
    field_simp
    ring

theorem expand_spec (zero : ℕ → Bool) (n : ℕ) (m : ℕ → ℝ) (i : ℕ) :
    expand zero n (live n zero).length m i =
      if i < n then (if zero i then 0 else m (live i zero).length) else m i := by
  induction n generalizing m with
  | zero => simp [expand]
  | succ n ih =>
    rw [expand, live_succ]
    cases h : zero n
    · simp only [Bool.false_eq_true, if_false, List.length_append, List.length_singleton, Nat.add_sub_cancel]
      rw [ih]
      rcases lt_trichotomy i n with h1 | h1 | h1
      · have := live_le i zero
        simp only [h1, show i < n + 1 from by omega, if_true]
        rw [Function.update_of_ne (by omega)]
      · subst h1; rw [if_neg (by omega), if_pos (by omega), h, Function.update_self]; simp
      · rw [if_neg (by omega), if_neg (by omega), Function.update_of_ne (by omega)]
    · simp only [if_true, List.append_nil]
      rw [ih]
      rcases lt_trichotomy i n with h1 | h1 | h1
      · have := live_le i zero
        simp only [h1, show i < n + 1 from by omega, if_true]
        rw [Function.update_of_ne (by omega)]
      · subst h1; rw [if_neg (by omega), if_pos (by omega), h, Function.update_self]; simp
      · rw [if_neg (by omega), if_neg (by omega), Function.update_of_ne (by omega)]

variable (S : Soln) (RT : ℝ) (zero : ℕ → Bool) (mu : ℕ → ℝ)

theorem guessFrac_eq (i : ℕ) (hi : i < S.na) : guessFrac S RT zero mu i = if zero i then 0 else
    Real.exp (-mu i / RT) / ∑ k ∈ range S.na, if zero k then 0 else Real.exp (-mu k / RT) := by
  have key : ∀ m : ℕ → ℝ, (∀ k < (live S.na zero).length, m k = idealFrac RT (fun k => mu ((live S.na zero).getD k 0))
      (live S.na zero).length k) → zero i = false → m (live i zero).length =
      Real.exp (-mu i / RT) / ∑ k ∈ range S.na, if zero k then 0 else Real.exp (-mu k / RT) := by
    intro m hm hz
    have hlt := live_lt zero hi hz
    rw [hm _ hlt, idealFrac_eq _ hlt, live_getD zero hi hz, ← sum_live S.na zero fun k => Real.exp (-mu k / RT)]
  unfold guessFrac
  split_ifs with h1 h2 h2
  · rw [expand_spec, if_pos hi, if_pos h2]
  · rw [expand_spec, if_pos hi, if_neg h2]
    exact key _ (fun _ _ => rfl) (by simpa using h2)
  · exfalso
    have h3 := nulls_length S.na zero
    have : (nulls S.na zero).length = 0 := by omega
    rw [List.length_eq_zero_iff] at this
    have hm : i ∈ nulls S.na zero := by unfold nulls; simp [hi, h2]
    rw [this] at hm; simp at hm
  · have h2' : zero i = false := by simpa using h2
    have all : ∀ n, (live n zero).length ≤ n := fun n => live_le n zero
    have hr : (live i zero).length = i := by
      have h3 := nulls_length S.na zero
      have h4 : (nulls S.na zero).length = 0 := by omega
      rw [List.length_eq_zero_iff] at h4
      have h5 := nulls_length i zero
      have h6 : nulls i zero = [] := by
        rw [List.eq_nil_iff_forall_not_mem]
        intro a ha
        unfold nulls at ha h4
        rw [List.filter_eq_nil_iff] at h4
        rw [List.mem_filter, List.mem_range] at ha
        exact h4 a (List.mem_range.mpr (by omega)) ha.2
      rw [h6] at h5; simpa using h5
    have := key _ (fun _ _ => rfl) h2'
    rw [hr] at this
    exact this

/-- Affinity of the first guess, in joules. -/
def guessAffinity : ℝ := idealAffinity RT (fun k => mu ((live S.na zero).getD k 0)) (live S.na zero).length * SCALE

theorem guessAffinity_eq (hRT : RT ≠ 0) (hz : 0 < (live S.na zero).length) : guessAffinity S RT zero mu =
    -RT * Real.log (∑ k ∈ range S.na, if zero k then 0 else Real.exp (-mu k / RT)) := by
  rw [← sum_live S.na zero fun k => Real.exp (-mu k / RT)]
  unfold guessAffinity idealAffinity SCALE
  set g := fun k => mu ((live S.na zero).getD k 0) with hg
  change _ = -RT * Real.log (∑ k ∈ range (live S.na zero).length, Real.exp (-g k / RT))
  split_ifs with h
  · rw [h, sum_range_one, Real.log_exp]
    field_simp
  · rw [idealFrac_eq _ hz, Real.log_div (Real.exp_pos _).ne', Real.log_exp]
    · field_simp
      ring
    · exact (sum_pos (fun k _ => Real.exp_pos _) ⟨0, mem_range.mpr hz⟩).ne'

theorem part_pos (h : ∃ i < S.na, zero i = false) :
    0 < ∑ k ∈ range S.na, if zero k then 0 else Real.exp (-mu k / RT) := by
  obtain ⟨i, hi, hz⟩ := h
  refine sum_pos' (fun k _ => ?_) ⟨i, mem_range.mpr hi, ?_⟩
  · split_ifs
    · exact le_rfl
    · exact (Real.exp_pos _).le
  · rw [hz]; simpa using Real.exp_pos _

/-- **C71.** The first guess is the saturated ideal solution: excluded end members are absent, the others have positive
mole fractions that sum to one, and `A = mu + RT ln x` for each of them. -/
theorem C71_guess (hRT : RT ≠ 0) (h : ∃ i < S.na, zero i = false) :
    (∀ i < S.na, zero i = true → guessFrac S RT zero mu i = 0) ∧
    (∀ i < S.na, zero i = false → 0 < guessFrac S RT zero mu i ∧
      guessAffinity S RT zero mu = mu i + RT * Real.log (guessFrac S RT zero mu i)) ∧
    ∑ i ∈ range S.na, guessFrac S RT zero mu i = 1 := by
  have hZ := part_pos S RT zero mu h
  refine ⟨fun i hi hz => by rw [guessFrac_eq S RT zero mu i hi, hz]; simp, fun i hi hz => ?_, ?_⟩
  · obtain hlen : 0 < (live S.na zero).length := by have := live_lt zero hi hz; omega
    rw [guessFrac_eq S RT zero mu i hi, hz, guessAffinity_eq S RT zero mu hRT hlen]
    simp only [Bool.false_eq_true, if_false]
    refine ⟨by have := Real.exp_pos (-mu i / RT); positivity, ?_⟩
    rw [Real.log_div (Real.exp_pos _).ne' hZ.ne', Real.log_exp]
    field_simp
    ring
  · rw [sum_congr rfl fun i hi => guessFrac_eq S RT zero mu i (mem_range.mp hi)]
    have : ∀ i ∈ range S.na, (if zero i = true then 0 else
        Real.exp (-mu i / RT) / ∑ k ∈ range S.na, if zero k then 0 else Real.exp (-mu k / RT)) =
        (if zero i then 0 else Real.exp (-mu i / RT)) / ∑ k ∈ range S.na, if zero k then 0 else Real.exp (-mu k / RT) :=
      fun i _ => by split_ifs <;> simp
    rw [sum_congr rfl this, ← sum_div, div_self hZ.ne']

/-- **C71.** There is only one saturated ideal solution. -/
theorem C71_guess_unique (hRT : RT ≠ 0) (h : ∃ i < S.na, zero i = false) (x : ℕ → ℝ) (A : ℝ)
    (h0 : ∀ i < S.na, zero i = true → x i = 0)
    (h1 : ∀ i < S.na, zero i = false → 0 < x i ∧ A = mu i + RT * Real.log (x i)) (hs : ∑ i ∈ range S.na, x i = 1) :
    A = guessAffinity S RT zero mu ∧ ∀ i < S.na, x i = guessFrac S RT zero mu i := by
  have hZ := part_pos S RT zero mu h
  have hx : ∀ i < S.na, x i = Real.exp (A / RT) * if zero i then 0 else Real.exp (-mu i / RT) := by
    intro i hi
    cases hz : zero i
    · obtain ⟨hp, hA⟩ := h1 i hi hz
      simp only [Bool.false_eq_true, if_false]
      rw [← Real.exp_add]
      have e : A / RT + -mu i / RT = Real.log (x i) := by
        rw [hA]
        field_simp
        ring
      rw [e, Real.exp_log hp]
    · rw [h0 i hi hz]; simp
  have hE : Real.exp (A / RT) * ∑ k ∈ range S.na, (if zero k then 0 else Real.exp (-mu k / RT)) = 1 := by
    rw [mul_sum, ← hs]
    exact sum_congr rfl fun i hi => (hx i (mem_range.mp hi)).symm
  have hE' : Real.exp (A / RT) = 1 / ∑ k ∈ range S.na, (if zero k then 0 else Real.exp (-mu k / RT)) := by
    rw [eq_div_iff hZ.ne']; exact hE
  obtain ⟨i, hi, hz⟩ := h
  have hlen : 0 < (live S.na zero).length := by have := live_lt zero hi hz; omega
  refine ⟨?_, fun i hi => ?_⟩
  · rw [guessAffinity_eq S RT zero mu hRT hlen]
    have := congrArg Real.log hE'
    rw [Real.log_exp, one_div, Real.log_inv] at this
    rw [div_eq_iff hRT] at this
    linarith
  · rw [hx i hi, guessFrac_eq S RT zero mu i hi, hE']
    split_ifs <;> ring

/-! ### The rotation of the variables -/

theorem chain_le (rows cols : ℕ) (s : (ℕ → ℕ → ℝ) × (ℕ → ℝ)) (hc : 0 < cols) (x : ℕ → ℝ) (j : ℕ) (hj : j < cols) :
    |chain (decomp rows cols rows s).1 (decomp rows cols rows s).2 cols rows x j| ≤ ∑ l ∈ range cols, |x l| := by
  have h := Reduced.dot_chain rows cols s hc x x
  simp only at h
  set c := chain (decomp rows cols rows s).1 (decomp rows cols rows s).2 cols rows x
  have h1 : c j ^ 2 ≤ dot cols c c := by
    unfold dot
    rw [sq]
    exact single_le_sum (f := fun i => c i * c i) (fun i _ => mul_self_nonneg _) (mem_range.mpr hj)
  have h2 : dot cols x x ≤ (∑ l ∈ range cols, |x l|) ^ 2 := by
    unfold dot
    calc ∑ i ∈ range cols, x i * x i = ∑ i ∈ range cols, |x i| ^ 2 := sum_congr rfl fun i _ => by rw [sq_abs]; ring
      _ ≤ _ := sum_sq_le_sq_sum_of_nonneg fun i _ => abs_nonneg _
  exact abs_le_of_sq_le_sq (by linarith) (sum_nonneg fun i _ => abs_nonneg _)

theorem back_apply (rows cols : ℕ) (s : (ℕ → ℕ → ℝ) × (ℕ → ℝ)) (hc : 0 < cols) (w : ℕ → ℝ) (i : ℕ) (hi : i < cols) :
    back (decomp rows cols rows s).1 (decomp rows cols rows s).2 cols rows w i =
      dot cols (chain (decomp rows cols rows s).1 (decomp rows cols rows s).2 cols rows fun k => if k = i then 1 else 0) w := by
  rw [← dot_back _ _ _ hc, ← Reduced.dot_single cols i hi (back _ _ _ _ w)]
  unfold dot
  exact sum_congr rfl fun _ _ => mul_comm _ _

/-- Moving the vector by at most `ρ` in each of the entries that are free moves the point by at most `ρ` times their number. -/
theorem back_sub_le (rows cols : ℕ) (s : (ℕ → ℕ → ℝ) × (ℕ → ℝ)) (hr : rows ≤ cols) (hc : 0 < cols) (u v : ℕ → ℝ) (ρ : ℝ)
    (h0 : ∀ i < rows, u i = v i) (h1 : ∀ i, rows ≤ i → i < cols → |u i - v i| ≤ ρ) (i : ℕ) (hi : i < cols) :
    |back (decomp rows cols rows s).1 (decomp rows cols rows s).2 cols rows u i
      - back (decomp rows cols rows s).1 (decomp rows cols rows s).2 cols rows v i| ≤ (cols - rows : ℕ) * ρ := by
  rw [back_apply _ _ _ hc _ _ hi, back_apply _ _ _ hc _ _ hi]
  set c := chain (decomp rows cols rows s).1 (decomp rows cols rows s).2 cols rows fun k => if k = i then 1 else 0
  have hc1 : ∀ j < cols, |c j| ≤ 1 := by
    intro j hj
    refine (chain_le rows cols s hc _ j hj).trans ?_
    rw [sum_eq_single i]
    · simp
    · intro b _ hb; simp [hb]
    · intro h; exact absurd (mem_range.mpr hi) h
  have e : dot cols c u - dot cols c v = ∑ j ∈ Ico rows cols, c j * (u j - v j) := by
    unfold dot
    rw [← sum_sub_distrib, range_eq_Ico, ← sum_Ico_consecutive _ (Nat.zero_le rows) hr, sum_eq_zero, zero_add]
    · exact sum_congr rfl fun j _ => by ring
    · intro j hj
      rw [h0 j (mem_Ico.mp hj).2]; ring
  rw [e]
  calc |∑ j ∈ Ico rows cols, c j * (u j - v j)| ≤ ∑ j ∈ Ico rows cols, |c j * (u j - v j)| := abs_sum_le_sum_abs _ _
    _ ≤ ∑ j ∈ Ico rows cols, ρ := sum_le_sum fun j hj => by
        obtain ⟨h2, h3⟩ := mem_Ico.mp hj
        rw [abs_mul]
        have := h1 j h2 h3
        have hb := hc1 j h3
        nlinarith [abs_nonneg (u j - v j), abs_nonneg (c j)]
    _ = _ := by rw [sum_const, Nat.card_Ico, nsmul_eq_mul]

theorem clean_le (v : ℕ → ℝ) (i : ℕ) : |clean v i - v i| ≤ 10 * eps := by
  unfold clean
  split_ifs with h
  · rw [zero_sub, abs_neg]; exact h.le
  · rw [sub_self, abs_zero]; unfold eps; positivity

/-! ### The result -/

variable {S} {zero} {mu} {T P : ℝ} {h0 : ℕ → ℝ} {retry : Option ((ℕ → ℝ) × (ℕ → ℝ))}

/-- The frame used by a call. -/
def theFrame (S : Soln) (T : ℝ) (zero : ℕ → Bool) (mu h0 : ℕ → ℝ) : Frame :=
  frame S zero h0 (S.conv (guessFrac S (Magma.Thermo.MuO2.R * T) zero mu))

theorem solveOnce_success {Q : Modmrt.Problem} {b : ℕ → ℝ} {z : (ℕ → ℝ) × ℝ} (hn : 0 < Q.n) (h : solveOnce Q b = some z) :
    ∃ x r : ℕ → ℝ, Modmrt.eval Q x = some r ∧ z.2 = Modmrt.ssq Q r ∧ ∀ i < Q.n, |z.1 i - x i| ≤ Q.reltest := by
  unfold solveOnce at h
  split at h
  · rename_i s hs
    injection h with h
    subst h
    obtain ⟨x, r, d, l, h1, h2, -, -, h3, h4⟩ := Modmrt.C53_success hn hs
    exact ⟨x, r, h1, h2, fun i hi => by simpa [h3 i] using h4 i hi⟩
  · cases h

theorem again_success {Q : Modmrt.Problem} {z : ℕ → ℝ} (h : again Q retry = some z) :
    ∃ b w, solveOnce Q b = some (z, w) ∧ w ≤ small := by
  unfold again at h
  split at h
  · cases h
  · rename_i g
    have second : ∀ {z}, (match solveOnce Q g.2 with
          | some r' => if r'.2 > small then none else some r'.1
          | none => none) = some z → ∃ b w, solveOnce Q b = some (z, w) ∧ w ≤ small := by
      intro z h
      split at h
      · rename_i r' hr'
        split_ifs at h with hs
        injection h with h
        exact ⟨g.2, r'.2, by rw [hr', ← h], not_lt.mp hs⟩
      · cases h
    split at h
    · rename_i r hr
      split_ifs at h with hs
      · exact second h
      · injection h with h
        exact ⟨g.1, r.2, by rw [hr, ← h], not_lt.mp hs⟩
    · exact second h

/-- Every successful return comes from a call of the solver that ended with a small sum of squares. -/
theorem getAffinity_cases {A : ℝ} {r : ℕ → ℝ} (h : getAffinity S T P zero mu h0 retry = some (A, r)) :
    0 < T ∧ 0 < (live S.na zero).length ∧ ∃ ρ ≤ 1 / 10 ^ 6, ∃ b z w,
      solveOnce (problem S (Magma.Thermo.MuO2.R * T) zero mu (theFrame S T zero mu h0) ρ) b = some (z, w) ∧ w ≤ small ∧
      A = z ((live S.na zero).length - 1) * SCALE ∧ r = (theFrame S T zero mu h0).point z := by
  unfold getAffinity at h
  simp only at h
  split_ifs at h with hc
  push Not at hc
  refine ⟨hc.1, Nat.pos_of_ne_zero hc.2.2, ?_⟩
  split at h
  · cases h
  · rename_i q hq
    split_ifs at h with hs
    · rw [Option.map_eq_some_iff] at h
      obtain ⟨z, hz, he⟩ := h
      obtain ⟨b, w, hb, hw⟩ := again_success hz
      injection he with e1 e2
      refine ⟨small, ?_, b, z, w, hb, hw, e1.symm, e2.symm⟩
      unfold small eps
      rw [show (1 : ℝ) / 2 ^ 52 = (1 / 2 ^ 26) ^ 2 by norm_num, Real.sqrt_sq (by positivity)]
      norm_num
    · injection h with h
      injection h with e1 e2
      exact ⟨1 / 10 ^ 6, le_rfl, _, q.1, q.2, hq, not_lt.mp hs, e1.symm, e2.symm⟩

/-- **C71.** When the routine reports success there is, next to the affinity and composition it returns, an admissible
composition at which `A = mu + RT ln a` holds for every end member that is not excluded, with an error of at most
1000/8192 J. -/
theorem C71_affinity {A : ℝ} {r : ℕ → ℝ} (h : getAffinity S T P zero mu h0 retry = some (A, r)) :
    ∃ (A' : ℝ) (r' : ℕ → ℝ), S.test r' = true ∧ |A - A'| ≤ 1 / 1000 ∧
      (∀ i < S.na - 1, |r i - r' i| ≤ S.na / 10 ^ 6 + 20 * eps) ∧
      ∀ i < S.na, zero i = false →
        |A' - (mu i + Magma.Thermo.MuO2.R * T * Real.log (S.act r' i))| ≤ 1000 / 8192 := by
  obtain ⟨hT, hn, ρ, hρ, b, z, w, hs, hw, rfl, rfl⟩ := getAffinity_cases h
  set f := theFrame S T zero mu h0 with hf
  set Q := problem S (Magma.Thermo.MuO2.R * T) zero mu f ρ with hQ
  have hQn : Q.n = (live S.na zero).length := rfl
  obtain ⟨x, q, hx, hq, hd⟩ := solveOnce_success (by rw [hQn]; exact hn) hs
  rw [hQn] at hd
  unfold Modmrt.eval at hx
  split_ifs at hx with hall
  have hm : Q.m = (live S.na zero).length := rfl
  rw [hm] at hall
  injection hx with hx
  have htest : S.test (f.point x) = true := by
    have := hall 0 hn
    by_contra hne
    rw [hQ, problem] at this
    simp [hne] at this
  have hres : ∀ i, q i = (-(Magma.Thermo.MuO2.R * T) * Real.log (S.act (f.point x) ((live S.na zero).getD i 0))
      + x ((live S.na zero).length - 1) * SCALE - mu ((live S.na zero).getD i 0)) / SCALE := by
    intro i
    rw [← hx]
    simp [hQ, problem, htest]
  refine ⟨x ((live S.na zero).length - 1) * SCALE, f.point x, htest, ?_, ?_, ?_⟩
  · have := hd ((live S.na zero).length - 1) (by omega)
    have hρ' : Q.reltest = ρ := rfl
    rw [hρ'] at this
    rw [← sub_mul, abs_mul, SCALE, abs_of_pos (by norm_num : (0 : ℝ) < 1000)]
    nlinarith
  · intro i hi
    have hlen := nulls_length S.na zero
    have hle := live_le S.na zero
    have hna : ((live S.na zero).length : ℝ) ≤ S.na := by exact_mod_cast hle
    have he : 0 ≤ eps := by unfold eps; positivity
    have hρ' : Q.reltest = ρ := rfl
    unfold Frame.point
    have hne : f.ne = (nulls S.na zero).length := rfl
    have hnr : f.nr = S.na - 1 := rfl
    split_ifs with h1
    · rw [hne] at h1
      have := hd i (by omega)
      rw [hρ'] at this
      have h1' : (1 : ℝ) ≤ S.na := by exact_mod_cast (by omega : 1 ≤ S.na)
      have : |z i - x i| ≤ 1 / 10 ^ 6 := this.trans hρ
      have : (1 : ℝ) / 10 ^ 6 ≤ S.na / 10 ^ 6 := by gcongr
      linarith
    · have hF : f.F = decomp f.ne f.nr f.ne (fun i => S.dxdr (S.conv (guessFrac S (Magma.Thermo.MuO2.R * T) zero mu))
          ((nulls S.na zero).getD i 0), h0) := rfl
      set u := fun i => if i < f.ne then f.y i else z (i - f.ne)
      set v := fun i => if i < f.ne then f.y i else x (i - f.ne)
      have key : |back f.F.1 f.F.2 f.nr f.ne u i - back f.F.1 f.F.2 f.nr f.ne v i| ≤ (f.nr - f.ne : ℕ) * ρ := by
        rw [hF]
        refine back_sub_le f.ne f.nr _ (by omega) (by omega) u v ρ ?_ ?_ i (by omega)
        · intro i hi; simp only [u, v, if_pos hi]
        · intro i hi1 hi2
          simp only [u, v, if_neg (not_lt.mpr hi1)]
          rw [← hρ']
          exact hd (i - f.ne) (by omega)
      have hcnt : ((f.nr - f.ne : ℕ) : ℝ) ≤ S.na := by exact_mod_cast (by omega)
      have c1 := clean_le (back f.F.1 f.F.2 f.nr f.ne u) i
      have c2 := clean_le (back f.F.1 f.F.2 f.nr f.ne v) i
      have hρ0 : 0 ≤ ρ := by
        have := (abs_nonneg _).trans (hd 0 hn)
        rwa [hρ'] at this
      have : ((f.nr - f.ne : ℕ) : ℝ) * ρ ≤ S.na / 10 ^ 6 := by
        calc ((f.nr - f.ne : ℕ) : ℝ) * ρ ≤ S.na * (1 / 10 ^ 6) := by gcongr
          _ = _ := by ring
      rw [abs_le] at c1 c2 key ⊢
      constructor <;> linarith [c1.1, c1.2, c2.1, c2.2, key.1, key.2]
  · intro i hi hz
    have hlt := live_lt zero hi hz
    have hsq : q (live i zero).length ^ 2 ≤ small := by
      refine le_trans ?_ hw
      rw [show w = Modmrt.ssq Q q from hq]
      unfold Modmrt.ssq
      rw [hm]
      exact single_le_sum (f := fun i => q i ^ 2) (fun i _ => sq_nonneg _) (mem_range.mpr hlt)
    have hsm : small = (1 / 8192) ^ 2 := by
      unfold small eps
      rw [show (1 : ℝ) / 2 ^ 52 = ((1 / 8192) ^ 2) ^ 2 by norm_num, Real.sqrt_sq (by positivity)]
    rw [hsm] at hsq
    have habs := abs_le_of_sq_le_sq hsq (by norm_num)
    have hr := hres (live i zero).length
    rw [live_getD zero hi hz] at hr
    have e : x ((live S.na zero).length - 1) * SCALE - (mu i + Magma.Thermo.MuO2.R * T * Real.log (S.act (f.point x) i))
        = 1000 * q (live i zero).length := by
      rw [hr, SCALE]
      ring
    rw [e, abs_mul, abs_of_pos (by norm_num : (0 : ℝ) < 1000)]
    linarith

/-- **C71.** An excluded end member stays out: where the mole fractions are affine in the independent variables and the
conversion of the first guess is exact, its fraction in the returned composition is of the order of the rounding unit. -/
theorem C71_excluded {A : ℝ} {r : ℕ → ℝ} (h : getAffinity S T P zero mu h0 retry = some (A, r))
    (frac : (ℕ → ℝ) → ℕ → ℝ) (D : ℕ → ℕ → ℝ) (hD : ∀ r, S.dxdr r = D)
    (haff : ∀ r r' i, i < S.na → frac r i - frac r' i = ∑ j ∈ range (S.na - 1), D i j * (r j - r' j))
    (hconv : ∀ i < S.na, frac (S.conv (guessFrac S (Magma.Thermo.MuO2.R * T) zero mu)) i
      = guessFrac S (Magma.Thermo.MuO2.R * T) zero mu i) (i : ℕ) (hi : i < S.na) (hz : zero i = true) :
    |frac r i| ≤ 10 * eps * (S.na * ∑ j ∈ range (S.na - 1), |D i j|) := by
  obtain ⟨hT, hn, ρ, hρ, b, z, w, hs, hw, -, rfl⟩ := getAffinity_cases h
  set x0 := guessFrac S (Magma.Thermo.MuO2.R * T) zero mu with hx0
  set b0 := S.conv x0 with hb0
  set f := theFrame S T zero mu h0 with hf
  have hlen := nulls_length S.na zero
  have hle := live_le S.na zero
  have hne : f.ne = (nulls S.na zero).length := rfl
  have hnr : f.nr = S.na - 1 := rfl
  have hmem : i ∈ nulls S.na zero := by unfold nulls; simp [hi, hz]
  obtain ⟨k, hk, hki⟩ := List.getElem_of_mem hmem
  have hki' : (nulls S.na zero).getD k 0 = i := by rw [List.getD_eq_getElem _ _ hk, hki]
  have hF : f.F = decomp f.ne f.nr f.ne (fun i => S.dxdr b0 ((nulls S.na zero).getD i 0), h0) := rfl
  have hy : f.y = clean (chain f.F.1 f.F.2 f.nr f.ne b0) := rfl
  have he : 0 ≤ eps := by unfold eps; positivity
  have hnr0 : 0 < f.nr := by omega
  have hzero : x0 i = 0 := by rw [hx0, guessFrac_eq _ _ _ _ _ hi, hz]; simp
  have e1 : frac (f.point z) i = ∑ j ∈ range f.nr, D i j * (f.point z j - b0 j) := by
    have h1 := haff (f.point z) b0 i hi
    rw [hconv i hi, hzero, sub_zero] at h1
    rw [h1, hnr]
  rw [e1]
  unfold Frame.point
  rw [if_neg (by omega)]
  set w' := fun j => if j < f.ne then f.y j else z (j - f.ne) with hw'
  set p := back f.F.1 f.F.2 f.nr f.ne w' with hp
  have row : (fun j => D i j) = (fun i => S.dxdr b0 ((nulls S.na zero).getD i 0)) k := by
    simp only [hki', hD]
  have hcr := chain_row f.ne f.nr (fun i => S.dxdr b0 ((nulls S.na zero).getD i 0), h0) k (by omega) (by omega)
  simp only at hcr
  rw [← hF] at hcr
  set c := chain f.F.1 f.F.2 f.nr f.ne (fun j => D i j) with hc
  have hc0 : ∀ j, k < j → j < f.nr → c j = 0 := by
    intro j h1 h2
    rw [hc, row]; exact hcr.2 j h1 h2
  have hcle : ∀ j < f.nr, |c j| ≤ ∑ l ∈ range f.nr, |D i l| := by
    intro j hj
    rw [hc, hF]
    exact chain_le f.ne f.nr _ hnr0 _ j hj
  have d1 : dot f.nr (fun j => D i j) p = dot f.nr c w' := by rw [hp, hc]; exact dot_back _ _ _ hnr0 _ _ _
  have d2 : dot f.nr (fun j => D i j) b0 = dot f.nr c (chain f.F.1 f.F.2 f.nr f.ne b0) := by
    rw [hc, hF]; exact (Reduced.dot_chain f.ne f.nr _ hnr0 _ _).symm
  have split : ∑ j ∈ range f.nr, D i j * (clean p j - b0 j)
      = ∑ j ∈ range f.nr, D i j * (clean p j - p j) + ∑ j ∈ range f.nr, c j * (w' j - chain f.F.1 f.F.2 f.nr f.ne b0 j) := by
    have : ∑ j ∈ range f.nr, c j * (w' j - chain f.F.1 f.F.2 f.nr f.ne b0 j)
        = dot f.nr (fun j => D i j) p - dot f.nr (fun j => D i j) b0 := by
      rw [d1, d2]; unfold dot; rw [← sum_sub_distrib]; exact sum_congr rfl fun j _ => by ring
    rw [this]
    unfold dot
    rw [← sum_sub_distrib, ← sum_add_distrib]
    exact sum_congr rfl fun j _ => by ring
  have b1 : |∑ j ∈ range f.nr, D i j * (clean p j - p j)| ≤ 10 * eps * ∑ j ∈ range f.nr, |D i j| := by
    refine (abs_sum_le_sum_abs _ _).trans ?_
    rw [mul_sum]
    refine sum_le_sum fun j _ => ?_
    rw [abs_mul]
    nlinarith [clean_le p j, abs_nonneg (D i j)]
  have hkn : k + 1 ≤ f.nr := by omega
  have b2 : |∑ j ∈ range f.nr, c j * (w' j - chain f.F.1 f.F.2 f.nr f.ne b0 j)|
      ≤ (k + 1 : ℕ) * (10 * eps * ∑ j ∈ range f.nr, |D i j|) := by
    have : ∑ j ∈ range f.nr, c j * (w' j - chain f.F.1 f.F.2 f.nr f.ne b0 j)
        = ∑ j ∈ range (k + 1), c j * (w' j - chain f.F.1 f.F.2 f.nr f.ne b0 j) := by
      refine (sum_subset (fun j hj => mem_range.mpr (by have := mem_range.mp hj; omega)) fun j hj hj' => ?_).symm
      rw [hc0 j (by have := mem_range.not.mp hj'; omega) (mem_range.mp hj), zero_mul]
    rw [this]
    refine (abs_sum_le_sum_abs _ _).trans ?_
    calc ∑ j ∈ range (k + 1), |c j * (w' j - chain f.F.1 f.F.2 f.nr f.ne b0 j)|
        ≤ ∑ j ∈ range (k + 1), 10 * eps * ∑ j ∈ range f.nr, |D i j| := sum_le_sum fun j hj => by
          have hj' : j < f.ne := by have := mem_range.mp hj; omega
          rw [abs_mul]
          have h1 := hcle j (by omega)
          have h2 : |w' j - chain f.F.1 f.F.2 f.nr f.ne b0 j| ≤ 10 * eps := by
            simp only [hw', if_pos hj', hy]
            exact clean_le _ j
          have h3 : 0 ≤ ∑ l ∈ range f.nr, |D i l| := sum_nonneg fun _ _ => abs_nonneg _
          calc |c j| * |w' j - chain f.F.1 f.F.2 f.nr f.ne b0 j| ≤ (∑ l ∈ range f.nr, |D i l|) * (10 * eps) := by
                gcongr
            _ = _ := mul_comm _ _
      _ = _ := by rw [sum_const, card_range, nsmul_eq_mul]
  rw [split]
  refine (abs_add_le _ _).trans ?_
  have hkna : ((k + 1 : ℕ) : ℝ) + 1 ≤ S.na := by exact_mod_cast (by omega)
  have h3 : 0 ≤ 10 * eps * ∑ l ∈ range f.nr, |D i l| := by
    have : 0 ≤ ∑ l ∈ range f.nr, |D i l| := sum_nonneg fun _ _ => abs_nonneg _
    positivity
  rw [hnr] at b1 b2 h3 ⊢
  nlinarith

end

end Magma.Engine.Saturation
