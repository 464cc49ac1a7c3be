import Verif.Thermo.Fluid.Duan
import Mathlib.Analysis.Calculus.MeanValue
import Mathlib.Topology.Order.IntermediateValue

/-!
# The search for the volume of a pure fluid

Model of `sources/fluidPhase.c` 1841-1870 (H2O) and 2012-2041 (CO2).  `h v` stands for
`z*8.314467*t/p` with the compressibility factor at the volume `v`, so that a volume that solves the
equation of state is a fixed point of `h`.
-/

open Filter Topology

namespace Verif.Thermo.Fluid

/-- `DBL_EPSILON`. -/
noncomputable def eps : ℝ := 1 / 2 ^ 52

/-- The first loop (`fluidPhase.c` 1846-1855): `n` passes are left, `iter` were made; `none` is the exit
at 200 passes, which prints a message. -/
noncomputable def avg (h : ℝ → ℝ) : ℕ → ℕ → ℝ → ℝ → ℝ → Option (ℝ × ℝ × ℝ)
  | 0, _, _, _, _ => none
  | n + 1, iter, v, vPrev, dPrev =>
    let delv := h v - v
    open Classical in
    if (1 < iter ∧ delv * dPrev < 0) ∨ |delv| < v * 100 * eps then some (v, vPrev, delv)
    else avg h n (iter + 1) ((h v + v) / 2) v delv

/-- The second loop (`fluidPhase.c` 1860-1867), `n` passes left; `none` is its exit at 200 passes. -/
noncomputable def bisect (h : ℝ → ℝ) : ℕ → ℝ → ℝ → Option ℝ
  | 0, _, _ => none
  | n + 1, rtb, dx =>
    let dx := dx * 0.5
    let v := rtb + dx
    let delv := h v - v
    open Classical in
    let rtb := if delv ≤ 0 then v else rtb
    open Classical in
    if |dx| < 100 * eps ∨ delv = 0 then some v else bisect h n rtb dx

/-- Both (`fluidPhase.c` 1843-1869), from the volume `v0 = 8.314467*t/p` of the ideal gas.  Simplification:
the two exits with a message give no volume here; the program goes on with the last one. -/
noncomputable def search (h : ℝ → ℝ) (v0 : ℝ) : Option ℝ :=
  match avg h 200 0 v0 1 1 with
  | none => none
  | some (v, vPrev, delv) =>
    open Classical in
    if |delv| > v * 100 * eps then
      if delv < 0 then bisect h 200 v (vPrev - v) else bisect h 200 vPrev (v - vPrev)
    else some v

lemma eps_pos : 0 < eps := by unfold eps; positivity

lemma bisect_ends (h : ℝ → ℝ) : ∀ (n : ℕ) (rtb dx : ℝ), |dx| < 2 ^ n * (100 * eps) → 0 < n →
    ∃ v, bisect h n rtb dx = some v := by
  intro n
  induction n with
  | zero => intro _ _ _ h0; exact absurd h0 (lt_irrefl _)
  | succ n ih =>
    intro rtb dx hd _
    simp only [bisect]
    split
    · exact ⟨_, rfl⟩
    · rename_i hn
      push Not at hn
      have h2 : |dx * 0.5| < 2 ^ n * (100 * eps) := by
        rw [abs_mul, show |(0.5 : ℝ)| = 1 / 2 by norm_num]
        rw [pow_succ] at hd
        linarith
      have hn0 : 0 < n := by
        rcases Nat.eq_zero_or_pos n with h0 | h0
        · subst h0
          rw [pow_zero, one_mul] at h2
          exact absurd h2 (not_lt.2 hn.1)
        · exact h0
      exact ih _ _ h2 hn0

lemma bisect_sound {h : ℝ → ℝ} {S : Set ℝ} (hS : S.OrdConnected) (hc : ContinuousOn h S) :
    ∀ (n : ℕ) (rtb dx : ℝ), rtb ∈ S → rtb + dx ∈ S → h rtb ≤ rtb → rtb + dx ≤ h (rtb + dx) →
    ∀ v, bisect h n rtb dx = some v → ∃ x ∈ S, h x = x ∧ |v - x| < 100 * eps := by
  intro n
  induction n with
  | zero => intro _ _ _ _ _ _ v hv; simp [bisect] at hv
  | succ n ih =>
    intro rtb dx s1 s2 g1 g2 v hv
    have key : ∀ a b, a ∈ S → b ∈ S → h a ≤ a → b ≤ h b → ∃ x ∈ S, h x = x ∧ x ∈ Set.uIcc a b := by
      intro a b ha hb l1 l2
      have hsub : Set.uIcc a b ⊆ S := hS.uIcc_subset ha hb
      have hcont : ContinuousOn (fun x => h x - x) (Set.uIcc a b) :=
        (hc.mono hsub).sub continuousOn_id
      have := intermediate_value_uIcc hcont
      obtain ⟨x, hx, hx0⟩ := this (show (0 : ℝ) ∈ Set.uIcc (h a - a) (h b - b) from
        Set.mem_uIcc.2 (Or.inl ⟨by linarith, by linarith⟩))
      exact ⟨x, hsub hx, by simpa [sub_eq_zero] using hx0, hx⟩
    have smid : rtb + dx * 0.5 ∈ S := by
      refine hS.uIcc_subset s1 s2 (Set.mem_uIcc.2 ?_)
      rcases le_total 0 dx with hd | hd
      · exact Or.inl ⟨by linarith, by linarith⟩
      · exact Or.inr ⟨by linarith, by linarith⟩
    have e1 : rtb + dx * 0.5 + dx * 0.5 = rtb + dx := by ring
    simp only [bisect] at hv
    split at hv
    · rename_i hstop
      simp only [Option.some.injEq] at hv
      subst hv
      rcases hstop with hs | hs
      · rcases le_total (h (rtb + dx * 0.5)) (rtb + dx * 0.5) with hl | hl
        · obtain ⟨x, hx, hx1, hx2⟩ := key _ _ smid s2 hl g2
          refine ⟨x, hx, hx1, lt_of_le_of_lt ?_ hs⟩
          have := Set.abs_sub_left_of_mem_uIcc hx2
          rw [abs_sub_comm]
          rw [show rtb + dx - (rtb + dx * 0.5) = dx * 0.5 by ring] at this
          exact this
        · obtain ⟨x, hx, hx1, hx2⟩ := key _ _ s1 smid g1 hl
          refine ⟨x, hx, hx1, lt_of_le_of_lt ?_ hs⟩
          have := Set.abs_sub_right_of_mem_uIcc hx2
          rw [show rtb + dx * 0.5 - rtb = dx * 0.5 by ring] at this
          exact this
      · refine ⟨_, smid, by linarith, ?_⟩
        rw [sub_self, abs_zero]
        have := eps_pos
        positivity
    · split at hv
      · rename_i hl
        exact ih _ _ smid (by rw [e1]; exact s2) (by linarith) (by rw [e1]; exact g2) v hv
      · rename_i hl
        push Not at hl
        exact ih _ _ s1 smid g1 (by linarith) v hv

/-- What the first loop hands over. -/
lemma avg_sound (h : ℝ → ℝ) : ∀ (n iter : ℕ) (v vPrev dPrev a b d : ℝ),
    (1 < iter → dPrev = h vPrev - vPrev) → avg h n iter v vPrev dPrev = some (a, b, d) →
    d = h a - a ∧ (|d| < a * 100 * eps ∨ d * (h b - b) < 0) := by
  intro n
  induction n with
  | zero => intro _ _ _ _ _ _ _ _ hv; simp [avg] at hv
  | succ n ih =>
    intro iter v vPrev dPrev a b d hP hv
    simp only [avg] at hv
    split at hv
    · rename_i hs
      simp only [Option.some.injEq, Prod.mk.injEq] at hv
      obtain ⟨rfl, rfl, rfl⟩ := hv
      refine ⟨rfl, ?_⟩
      rcases hs with hs | hs
      · right; rw [← hP hs.1]; exact hs.2
      · left; exact hs
    · exact ih _ _ _ _ _ _ _ (fun _ => rfl) hv

/-- **C80.**  A volume the search returns without a message solves the equation of state: either the
equation holds at it to a relative error of 100 machine epsilons, or an exact solution lies within 100
machine epsilons of it.  `S` is any interval that holds the two last volumes of the first loop and on which
the equation of state is continuous (the positive volumes, or an interval of negative ones). -/
theorem C80_search {h : ℝ → ℝ} {S : Set ℝ} (hS : S.OrdConnected) (hc : ContinuousOn h S) {v0 v : ℝ}
    (hin : ∀ a b d, avg h 200 0 v0 1 1 = some (a, b, d) → a ∈ S ∧ b ∈ S) (hv : search h v0 = some v) :
    |h v - v| ≤ v * 100 * eps ∨ ∃ x ∈ S, h x = x ∧ |v - x| < 100 * eps := by
  unfold search at hv
  split at hv
  · simp at hv
  · rename_i a b d hav
    obtain ⟨ha, hb⟩ := hin a b d hav
    obtain ⟨e1, e2⟩ := avg_sound h 200 0 v0 1 1 a b d (fun h => by omega) hav
    split at hv
    · rename_i hbig
      have e3 : d * (h b - b) < 0 := by
        rcases e2 with e2 | e2
        · exact absurd e2 (not_lt.2 hbig.le)
        · exact e2
      split at hv
      · rename_i hneg
        right
        refine bisect_sound hS hc 200 a (b - a) ha (by rw [add_sub_cancel]; exact hb) (by linarith) ?_ v hv
        rw [add_sub_cancel]
        nlinarith
      · rename_i hnn
        right
        refine bisect_sound hS hc 200 b (a - b) hb (by rw [add_sub_cancel]; exact ha) ?_ ?_ v hv
        · have : 0 < d := lt_of_le_of_ne (not_lt.1 hnn) (by rintro rfl; simp at e3)
          nlinarith
        · rw [add_sub_cancel]
          push Not at hnn
          linarith
    · rename_i hsm
      simp only [Option.some.injEq] at hv
      subst hv
      left
      rw [← e1]
      exact not_lt.1 hsm

/-- **C80.**  When the first loop stops before its limit, the second one stops before its own: a volume is
returned without a message whenever the two last volumes are less than `2^200 · 100` machine epsilons
apart. -/
theorem C80_search_ends {h : ℝ → ℝ} {v0 a b d : ℝ} (hav : avg h 200 0 v0 1 1 = some (a, b, d))
    (hd : |a - b| < 2 ^ 200 * (100 * eps)) : ∃ v, search h v0 = some v := by
  unfold search
  rw [hav]
  simp only
  split
  · split
    · exact bisect_ends h 200 _ _ (by rw [abs_sub_comm]; exact hd) (by norm_num)
    · exact bisect_ends h 200 _ _ hd (by norm_num)
  · exact ⟨_, rfl⟩

/-- A contraction near the start: the first loop stops by its tolerance. -/
lemma avg_contract {h : ℝ → ℝ} {v0 : ℝ} (hv0 : 0 < v0) (h0 : |h v0 - v0| ≤ v0 / 50)
    (hl : ∀ x y, v0 / 2 ≤ x → v0 / 2 ≤ y → |h x - h y| ≤ 3 / 25 * |x - y|) :
    ∃ a b d, avg h 200 0 v0 1 1 = some (a, b, d) ∧ |d| < a * 100 * eps ∧ d = h a - a
      ∧ |a - v0| ≤ v0 / 25 := by
  have step : ∀ v, v0 / 2 ≤ v → v0 / 2 ≤ (h v + v) / 2 →
      ∃ c, |c| ≤ 3 / 50 ∧ h ((h v + v) / 2) - (h v + v) / 2 = (h v - v) * (1 / 2 + c) := by
    intro v a1 a2
    by_cases hz : h v - v = 0
    · have : h v = v := by linarith
      exact ⟨0, by norm_num, by rw [this]; ring_nf; rw [this]; ring⟩
    · refine ⟨(h ((h v + v) / 2) - h v) / (h v - v), ?_, by field_simp; ring⟩
      rw [abs_div, div_le_iff₀ (abs_pos.2 hz)]
      have := hl _ _ a2 a1
      rw [show (h v + v) / 2 - v = (h v - v) / 2 by ring, abs_div, abs_two] at this
      linarith
  have main : ∀ n k : ℕ, 60 ≤ n + k → 0 < n → ∀ v vP dP, 
      |v - v0| + 2 * |h v - v| ≤ v0 / 25 → |h v - v| ≤ (14 / 25) ^ k * (v0 / 50) →
      (1 < k → 0 ≤ (h v - v) * dP) →
      ∃ a b d, avg h n k v vP dP = some (a, b, d) ∧ |d| < a * 100 * eps ∧ d = h a - a
        ∧ |a - v0| ≤ v0 / 25 := by
    intro n
    induction n with
    | zero => intro k _ h0; exact absurd h0 (lt_irrefl _)
    | succ n ih =>
      intro k hk _ v vP dP i1 i2 i3
      have hvlo : v0 * (24 / 25) ≤ v := by
        have := abs_le.1 (le_trans (le_add_of_nonneg_right (by positivity)) i1 : |v - v0| ≤ v0 / 25)
        linarith [this.1]
      have hsg : ¬(1 < k ∧ (h v - v) * dP < 0) := fun hh => absurd hh.2 (not_lt.2 (i3 hh.1))
      simp only [avg, hsg, false_or]
      split
      · rename_i hs
        exact ⟨_, _, _, rfl, hs, rfl, le_trans (le_add_of_nonneg_right (by positivity)) i1⟩
      · rename_i hs
        have hd2 := abs_le.1 (show |h v - v| ≤ v0 / 50 by
          have : 0 ≤ |v - v0| := abs_nonneg _
          linarith)
        obtain ⟨c, hc, e⟩ := step v (by linarith) (by linarith [hd2.1])
        have hc' := abs_le.1 hc
        have hab : |h v - v| * |1 / 2 + c| ≤ |h v - v| * (14 / 25) := by
          refine mul_le_mul_of_nonneg_left ?_ (abs_nonneg _)
          rw [abs_le]; constructor <;> linarith [hc'.1, hc'.2]
        have hab' : |h ((h v + v) / 2) - (h v + v) / 2| ≤ |h v - v| * (14 / 25) := by
          rw [e, abs_mul]; exact hab
        rcases Nat.eq_zero_or_pos n with hn | hn
        · -- the tolerance was met at this pass
          exfalso
          subst hn
          apply hs
          have hp : ((14 : ℝ) / 25) ^ k ≤ (14 / 25) ^ 59 :=
            pow_le_pow_of_le_one (by norm_num) (by norm_num) (by omega)
          have : (14 / 25 : ℝ) ^ k * (v0 / 50) ≤ (14 / 25) ^ 59 * (v0 / 50) :=
            mul_le_mul_of_nonneg_right hp (by positivity)
          have h59 : (14 / 25 : ℝ) ^ 59 * (v0 / 50) < v0 * (24 / 25) * 100 * eps := by
            unfold eps
            have : (14 / 25 : ℝ) ^ 59 / 50 < 24 / 25 * 100 * (1 / 2 ^ 52) := by norm_num
            nlinarith
          have heps := eps_pos
          have : v0 * (24 / 25) * 100 * eps ≤ v * 100 * eps := by
            have := mul_le_mul_of_nonneg_right hvlo (by positivity : 0 ≤ 100 * eps)
            linarith
          linarith
        · refine ih (k + 1) (by omega) hn _ _ _ ?_ ?_ ?_
          · have : |(h v + v) / 2 - v0| ≤ |v - v0| + |h v - v| / 2 := by
              have := abs_add_le (v - v0) ((h v - v) / 2)
              rw [abs_div, abs_two] at this
              rw [show (h v + v) / 2 - v0 = v - v0 + (h v - v) / 2 by ring]
              exact this
            have hnn : 0 ≤ |h v - v| := abs_nonneg _
            linarith
          · rw [pow_succ]
            have := mul_le_mul_of_nonneg_right i2 (by norm_num : (0 : ℝ) ≤ 14 / 25)
            linarith
          · intro _
            rw [e]
            have : (h v - v) * (1 / 2 + c) * (h v - v) = (h v - v) ^ 2 * (1 / 2 + c) := by ring
            rw [this]
            have : 0 ≤ 1 / 2 + c := by linarith [hc'.1]
            positivity
  refine main 200 0 (by norm_num) (by norm_num) v0 1 1 ?_ ?_ (fun h => by omega)
  · rw [sub_self, abs_zero]; linarith
  · simpa using h0

end Verif.Thermo.Fluid
