import Verif.Engine.SpeciationProps

/-!
C72, continued: ideal phases, single end members, a false success, and the species of the pyroxenes.
-/

namespace Magma.Engine.Saturation

open Finset Magma.Num

noncomputable section

theorem RT_pos {T : ℝ} (hT : 0 < T) : 0 < Magma.Thermo.MuO2.R * T := by
  have : (0 : ℝ) < Magma.Thermo.MuO2.R := by unfold Magma.Thermo.MuO2.R; norm_num
  positivity

/-- A pass with unit activity coefficients gives the ideal guess. -/
theorem pass_unit (Q : Scheme) {RT : ℝ} (hRT : RT ≠ 0) (s : Pass) (h2 : 2 ≤ (live Q.ns Q.zero).length)
    (hg : ∀ i < Q.ns, Q.zero i = false → s.g i = 1) :
    (Q.pass RT s).aff * SCALE = guessAffinity (bare Q.ns) RT Q.zero Q.mu ∧
      ∀ i < Q.ns, (Q.pass RT s).x i = guessFrac (bare Q.ns) RT Q.zero Q.mu i := by
  obtain ⟨p0, p1, p2⟩ := C72_pass Q hRT s h2
  refine C71_guess_unique (bare Q.ns) RT Q.zero Q.mu hRT (live_two h2) _ _ p0 (fun i hi hz => ⟨(p1 i hi hz).1, ?_⟩) p2
  rw [(p1 i hi hz).2, hg i hi hz, Real.log_one]
  ring

theorem next_g (Q : Scheme) {RT : ℝ} (s : Pass) (h : (Q.pass RT s).found = false) :
    (Q.pass RT s).g = Q.next (Q.pass RT s).x (Q.gOf RT s.g) := by
  unfold Scheme.pass at h ⊢
  simp only at h ⊢
  rw [h]; simp

theorem generic_next (S : Soln) (zero : ℕ → Bool) (mu x g : ℕ → ℝ) (i : ℕ) : (generic S zero mu).next x g i =
    if i < S.na ∧ x i ≠ 0 then S.act (S.conv x) i / x i else g i := rfl

/-- The loop ends with the second pass if the second affinity repeats the first. -/
theorem run_two (Q : Scheme) {T P : ℝ} (hT : 0 < T) (hP : 0 ≤ P) (hz : 0 < (live Q.ns Q.zero).length)
    (h : (Q.after (Magma.Thermo.MuO2.R * T) 1).found = false →
      (Q.after (Magma.Thermo.MuO2.R * T) 2).aff = (Q.after (Magma.Thermo.MuO2.R * T) 1).aff) :
    ∃ m, ((m = 1 ∧ (Q.after (Magma.Thermo.MuO2.R * T) 1).found = true) ∨
        (m = 2 ∧ (Q.after (Magma.Thermo.MuO2.R * T) 1).found = false)) ∧
      Q.run T P = some ((Q.after (Magma.Thermo.MuO2.R * T) m).aff * SCALE,
        Q.point (Q.after (Magma.Thermo.MuO2.R * T) m).x, true) := by
  obtain ⟨m, m1, m2, m3, m4, m5⟩ := C72_run Q hT hP hz
  have hm : m ≤ 2 := by
    by_contra hlt
    have h1 := m4 1 (by omega)
    have h2 := m4 2 (by omega)
    have e := h h1
    have : (Q.after (Magma.Thermo.MuO2.R * T) 2).found = true := by
      change (Q.pass (Magma.Thermo.MuO2.R * T) (Q.after (Magma.Thermo.MuO2.R * T) 1)).found = true
      have e' : Q.aff (Magma.Thermo.MuO2.R * T) (Q.after (Magma.Thermo.MuO2.R * T) 1).g
          = (Q.after (Magma.Thermo.MuO2.R * T) 1).aff := e
      simp only [Scheme.pass, e', sub_self, abs_zero, decide_eq_true_eq]
      unfold SCALE; norm_num
    rw [h2] at this
    cases this
  refine ⟨m, ?_, ?_⟩
  · rcases (by omega : m = 1 ∨ m = 2) with h | h
    · subst h
      refine Or.inl ⟨rfl, ?_⟩
      have := m5 (by omega)
      rw [← sub_mul, abs_mul, SCALE, abs_of_pos (by norm_num : (0 : ℝ) < 1000)] at this
      change (Q.pass (Magma.Thermo.MuO2.R * T) (Q.after (Magma.Thermo.MuO2.R * T) 0)).found = true
      unfold Scheme.pass
      refine decide_eq_true ?_
      rw [SCALE]
      change |(Q.after (Magma.Thermo.MuO2.R * T) 0).aff - (Q.after (Magma.Thermo.MuO2.R * T) 1).aff| * 1000 < 1 / 10 at this
      change |(Q.after (Magma.Thermo.MuO2.R * T) 0).aff - (Q.after (Magma.Thermo.MuO2.R * T) 1).aff| < 1 / 10 / 1000
      linarith
    · exact Or.inr ⟨h, m4 1 (by omega)⟩
  · rw [m3, decide_eq_true (by omega)]

/-- **C72.** For an ideal phase of at least two end members the generic routine succeeds and returns the ideal solution
in equilibrium with the liquid (C71) exactly. -/
theorem C72_ideal {S : Soln} {frac : (ℕ → ℝ) → ℕ → ℝ} (hS : Ideal S frac) {zero : ℕ → Bool} {mu : ℕ → ℝ} {T P : ℝ}
    (hT : 0 < T) (hP : 0 ≤ P) (h2 : 2 ≤ (live S.na zero).length) :
    ∃ x, (generic S zero mu).run T P = some (guessAffinity S (Magma.Thermo.MuO2.R * T) zero mu, S.conv x, true) ∧
      ∀ i < S.na, x i = guessFrac S (Magma.Thermo.MuO2.R * T) zero mu i := by
  set Q := generic S zero mu with hQ
  set RT := Magma.Thermo.MuO2.R * T with hRTd
  have hRT : RT ≠ 0 := (RT_pos hT).ne'
  have h2' : 2 ≤ (live Q.ns Q.zero).length := h2
  obtain ⟨a1, x1⟩ := pass_unit Q hRT (Q.after RT 0) h2' (fun i _ _ => rfl)
  have key : (Q.after RT 1).found = false →
      (Q.after RT 2).aff * SCALE = guessAffinity (bare Q.ns) RT Q.zero Q.mu ∧
      ∀ i < Q.ns, (Q.after RT 2).x i = guessFrac (bare Q.ns) RT Q.zero Q.mu i := by
    intro hf
    refine pass_unit Q hRT (Q.after RT 1) h2' fun i hi hz => ?_
    have hc : IsComp S.na (fun _ => false) (Q.pass RT (Q.after RT 0)).x := by
      have := guess_isComp (bare Q.ns) Q.zero Q.mu hRT (live_two h2')
      refine ⟨fun j hj => by rw [x1 j hj]; exact this.nonneg j hj, fun j hj h => by simp at h, ?_⟩
      rw [← this.total]
      exact sum_congr rfl fun j hj => x1 j (mem_range.mp hj)
    have hpos := ((C72_pass Q hRT (Q.after RT 0) h2').2.1 i hi hz).1
    have : (Q.after RT 1).g = Q.next (Q.pass RT (Q.after RT 0)).x (Q.gOf RT (Q.after RT 0).g) := next_g Q _ hf
    rw [this]
    rw [generic_next, if_pos ⟨hi, hpos.ne'⟩, hS.act _ i hi, (hS.conv _ hc).2 i hi]
    exact div_self hpos.ne'
  have hS0 : SCALE ≠ 0 := by unfold SCALE; norm_num
  obtain ⟨m, hm, hrun⟩ := run_two Q hT hP (by omega) fun hf => by
    have := (key hf).1
    rw [← a1] at this
    exact mul_right_cancel₀ hS0 this
  rcases hm with ⟨rfl, -⟩ | ⟨rfl, hf⟩
  · refine ⟨(Q.after RT 1).x, ?_, x1⟩
    rw [hrun]
    rw [show (Q.after (Magma.Thermo.MuO2.R * T) 1).aff * SCALE = guessAffinity S RT zero mu from a1]
    rfl
  · refine ⟨(Q.after RT 2).x, ?_, (key hf).2⟩
    rw [hrun]
    rw [show (Q.after (Magma.Thermo.MuO2.R * T) 2).aff * SCALE = guessAffinity S RT zero mu from (key hf).1]
    rfl

/-- **C72.** With one end member left the answer is off by one joule: the affinity of the pure end member is its potential
less that of its components in the liquid, but the routine returns that minus 1 J (it subtracts the activity coefficient
itself where `RT` times its logarithm is meant), and reports success. -/
theorem C72_single {S : Soln} {zero : ℕ → Bool} {mu : ℕ → ℝ} {T P : ℝ} (hT : 0 < T) (hP : 0 ≤ P) {j : ℕ}
    (hj : live S.na zero = [j])
    (hpure : ∀ x : ℕ → ℝ, (∀ i < S.na, x i = if i = j then 1 else 0) → S.act (S.conv x) j = 1) :
    ∃ x, (generic S zero mu).run T P = some (mu j - 1, S.conv x, true) ∧ ∀ i < S.na, x i = if i = j then 1 else 0 := by
  set Q := generic S zero mu with hQ
  set RT := Magma.Thermo.MuO2.R * T with hRTd
  have hl : live Q.ns Q.zero = [j] := hj
  have hlen : (live Q.ns Q.zero).length = 1 := by rw [hl]; rfl
  have hjm : j < S.na ∧ zero j = false := by
    have := live_mem (n := S.na) zero (k := 0) (by rw [hj]; simp)
    rw [hj] at this
    simpa using this
  have hrank : (live j zero).length = 0 := by
    have := live_lt zero hjm.1 hjm.2
    rw [hj] at this
    simpa using this
  have hother : ∀ i < S.na, i ≠ j → zero i = true := by
    intro i hi hne
    by_contra hz
    have hz' : zero i = false := by simpa using hz
    have h1 := live_lt zero hi hz'
    have h2 := live_getD zero hi hz'
    rw [hj] at h1 h2
    have : (live i zero).length = 0 := by simpa using h1
    rw [this] at h2
    exact hne (by simpa using h2.symm)
  have hx : ∀ g, ∀ i < S.na, Q.all RT g i = if i = j then 1 else 0 := by
    intro g i hi
    have hfr : ∀ k, Q.frac RT g k = 1 := by
      intro k; unfold Scheme.frac idealFrac; simp [hlen]
    unfold Scheme.all
    have hns : Q.ns = S.na := rfl
    split_ifs with h1 h2 h2
    · rw [expand_spec, if_pos (show i < Q.ns from hi), h2]
      have : Q.zero j = false := hjm.2
      simp [this, hfr]
    · rw [expand_spec, if_pos (show i < Q.ns from hi)]
      have : Q.zero i = true := hother i hi h2
      simp [this]
    · exact hfr _
    · exact absurd (show i = j by omega) h2
  have haff : ∀ g, g 0 = 1 → Q.aff RT g = (mu j - 1) / SCALE := by
    intro g hg
    unfold Scheme.aff
    simp only [hlen, if_true, hl]
    rw [hg]; rfl
  have hS0 : SCALE ≠ 0 := by unfold SCALE; norm_num
  have a1 : (Q.after RT 1).aff = (mu j - 1) / SCALE := haff _ rfl
  have key : (Q.after RT 1).found = false → (Q.after RT 2).aff = (mu j - 1) / SCALE := by
    intro hf
    refine haff _ ?_
    have : (Q.after RT 1).g = Q.next (Q.pass RT (Q.after RT 0)).x (Q.gOf RT (Q.after RT 0).g) := next_g Q _ hf
    rw [this]
    rw [generic_next]
    have hx1 := hx (Q.after RT 0).g
    split_ifs with hc
    · have h0 : (Q.pass RT (Q.after RT 0)).x 0 = if 0 = j then 1 else 0 := hx1 0 hc.1
      have hj0 : 0 = j := by
        by_contra hne
        rw [if_neg hne] at h0
        exact hc.2 h0
      rw [if_pos hj0] at h0
      have hp := hpure (Q.pass RT (Q.after RT 0)).x hx1
      rw [← hj0] at hp
      change S.act (S.conv (Q.pass RT (Q.after RT 0)).x) 0 / (Q.pass RT (Q.after RT 0)).x 0 = 1
      rw [hp, h0, div_one]
    · change Q.gOf RT (Q.after RT 0).g 0 = 1
      unfold Scheme.gOf
      rw [if_pos hlen]; rfl
  obtain ⟨m, hm, hrun⟩ := run_two Q hT hP (by omega) fun hf => by rw [key hf, a1]
  rcases hm with ⟨rfl, -⟩ | ⟨rfl, hf⟩
  · refine ⟨(Q.after RT 1).x, ?_, hx _⟩
    rw [hrun, ← hRTd, a1, div_mul_cancel₀ _ hS0]; rfl
  · refine ⟨(Q.after RT 2).x, ?_, hx _⟩
    rw [hrun, ← hRTd, key hf, div_mul_cancel₀ _ hS0]; rfl

/-! ### A false success -/

/-- Activity coefficients of a binary asymmetric (Margules) solution at the fraction `r` of the second end member. -/
def margulesLn (i : ℕ) (r : ℝ) : ℝ :=
  if i = 0 then r ^ 2 * (4 * Real.log 2 + 2 * (4 * Real.log (2 / 3) - 4 * Real.log 2) * (1 - r))
  else (1 - r) ^ 2 * (4 * Real.log (2 / 3) + 2 * (4 * Real.log 2 - 4 * Real.log (2 / 3)) * r)

/-- The solution. -/
def margules : Soln where
  na := 2
  conv := fun x _ => x 1
  dxdr := fun _ i _ => if i = 0 then -1 else 1
  act := fun r i => (if i = 0 then 1 - r 0 else r 0) * Real.exp (margulesLn i (r 0))
  dact := fun _ _ _ => 0
  test := fun r => decide (0 ≤ r 0 ∧ r 0 ≤ 1)

/-- **C72.** The activity coefficients obey the Gibbs-Duhem equation. -/
theorem C72_margules_consistent (r : ℝ) : ∃ d0 d1, HasDerivAt (margulesLn 0) d0 r ∧ HasDerivAt (margulesLn 1) d1 r ∧
    (1 - r) * d0 + r * d1 = 0 := by
  set a := 4 * Real.log 2
  set b := 4 * Real.log (2 / 3)
  have h0 : margulesLn 0 = fun r => r ^ 2 * (a + 2 * (b - a) * (1 - r)) := by funext r; simp [margulesLn, a, b]
  have h1 : margulesLn 1 = fun r => (1 - r) ^ 2 * (b + 2 * (a - b) * r) := by funext r; simp [margulesLn, a, b]
  rw [h0, h1]
  have i1 := hasDerivAt_id r
  have i2 : HasDerivAt (fun r : ℝ => 1 - r) (-1) r := by simpa using (i1.const_sub 1)
  have e0 := (i1.pow 2).mul ((i2.const_mul (2 * (b - a))).const_add a)
  have e1 := (i2.pow 2).mul ((i1.const_mul (2 * (a - b))).const_add b)
  refine ⟨_, _, e0, e1, ?_⟩
  simp
  ring

/-- Closed form of a pass with two species whose potentials are those in the liquid. -/
theorem binary_pass (Q : Scheme) (RT : ℝ) (hRT : RT ≠ 0) (hns : Q.ns = 2) (hz : ∀ i, Q.zero i = false)
    (hmu : ∀ i, Q.mu i = 0) (s : Pass) (hg : ∀ i < 2, 0 < s.g i) :
    (Q.pass RT s).aff * SCALE = -RT * Real.log (1 / s.g 0 + 1 / s.g 1) ∧
      ∀ i < 2, (Q.pass RT s).x i = 1 / s.g i / (1 / s.g 0 + 1 / s.g 1) := by
  have hlive : live Q.ns Q.zero = [0, 1] := by
    rw [hns]; simp [live, List.range_succ, hz]
  have h2 : 2 ≤ (live Q.ns Q.zero).length := by rw [hlive]; simp
  have hq : ∀ i < 2, Real.exp (-Q.muG RT s.g i / RT) = 1 / s.g i := by
    intro i hi
    unfold Scheme.muG
    rw [hmu, zero_add, neg_div, mul_div_cancel_left₀ _ hRT, Real.exp_neg, Real.exp_log (hg i hi), one_div]
  have hs : ∑ k ∈ range (bare Q.ns).na, (if Q.zero k then 0 else Real.exp (-Q.muG RT s.g k / RT))
      = 1 / s.g 0 + 1 / s.g 1 := by
    have hna : (bare Q.ns).na = 2 := hns
    rw [hna]
    change ∑ k ∈ range 2, (if Q.zero k then 0 else Real.exp (-Q.muG RT s.g k / RT)) = _
    rw [sum_range_succ, sum_range_one, hz, hz, hq 0 (by norm_num), hq 1 (by norm_num)]
    simp
  constructor
  · change Q.aff RT s.g * SCALE = _
    rw [aff_eq Q RT s.g h2, guessAffinity_eq (bare Q.ns) RT Q.zero _ hRT (by change 0 < (live Q.ns Q.zero).length; omega), hs]
  · intro i hi
    change Q.all RT s.g i = _
    rw [all_eq Q RT s.g h2 i (by omega), guessFrac_eq (bare Q.ns) RT Q.zero _ i (by change i < Q.ns; omega), hz, hs, hq i hi]
    simp

/-- **C72.** Success is no guarantee: for this thermodynamically consistent solution of two end members, both present and
both with the potentials they have in the liquid, the generic routine reports success at 1000 K, but at the composition it
returns the potential of the first end member misses the affinity by more than 1 kJ. -/
theorem C72_false_success : ∃ A r, (generic margules (fun _ => false) fun _ => 0).run 1000 1 = some (A, r, true) ∧
    1000 < Magma.Thermo.MuO2.R * 1000 * Real.log (margules.act r 0) - A := by
  set Q := generic margules (fun _ => false) fun _ => 0 with hQ
  obtain ⟨RT, hRTd⟩ : ∃ RT, RT = Magma.Thermo.MuO2.R * 1000 := ⟨_, rfl⟩
  have hRT0 : RT = 8314.3 := by rw [hRTd]; unfold Magma.Thermo.MuO2.R; norm_num
  have hRT : RT ≠ 0 := by rw [hRT0]; norm_num
  have hlive : live Q.ns Q.zero = [0, 1] := by
    change live 2 (fun _ => false) = [0, 1]
    simp [live, List.range_succ]
  have h2 : 2 ≤ (live Q.ns Q.zero).length := by rw [hlive]; simp
  have hz : ∀ i, Q.zero i = false := fun _ => rfl
  have hns : Q.ns = 2 := rfl
  have hmu : ∀ i, Q.mu i = 0 := fun _ => rfl
  have pass := fun s hg => binary_pass Q RT hRT rfl hz hmu s hg
  have p1 := pass (Q.after RT 0) (fun i _ => by simp [Scheme.after, first])
  have hg0 : ∀ i, (Q.after RT 0).g i = 1 := fun _ => rfl
  simp only [hg0] at p1
  have a1 : (Q.after RT 1).aff * SCALE = -RT * Real.log 2 := by
    have := p1.1
    rw [show (1 : ℝ) / 1 + 1 / 1 = 2 by norm_num] at this
    exact this
  have x1 : ∀ i < 2, (Q.after RT 1).x i = 1 / 2 := fun i hi => by
    have := p1.2 i hi
    rw [show (1 : ℝ) / 1 / (1 / 1 + 1 / 1) = 1 / 2 by norm_num] at this
    exact this
  have l2 : (0 : ℝ) < 2 := by norm_num
  have l23 : (0 : ℝ) < 2 / 3 := by norm_num
  have g2 : (Q.after RT 1).found = false → (Q.after RT 1).g 0 = 2 / 3 ∧ (Q.after RT 1).g 1 = 2 := by
    intro hf
    have e : (Q.after RT 1).g = Q.next (Q.after RT 1).x (Q.gOf RT (Q.after RT 0).g) := next_g Q _ hf
    have c : (margules.conv (Q.after RT 1).x) 0 = 1 / 2 := x1 1 (by norm_num)
    rw [e]
    rw [hQ, generic_next, generic_next, ← hQ]
    constructor
    · rw [if_pos ⟨by simp [margules], by rw [x1 0 (by norm_num)]; norm_num⟩, x1 0 (by norm_num)]
      change (1 - (margules.conv (Q.after RT 1).x) 0) * Real.exp (margulesLn 0 ((margules.conv (Q.after RT 1).x) 0)) / (1 / 2) = _
      rw [c]
      have : margulesLn 0 (1 / 2) = Real.log (2 / 3) := by simp only [margulesLn, if_true]; ring
      rw [this, Real.exp_log l23]; norm_num
    · rw [if_pos ⟨by simp [margules], by rw [x1 1 (by norm_num)]; norm_num⟩, x1 1 (by norm_num)]
      change (if (1 : ℕ) = 0 then 1 - (margules.conv (Q.after RT 1).x) 0 else (margules.conv (Q.after RT 1).x) 0)
        * Real.exp (margulesLn 1 ((margules.conv (Q.after RT 1).x) 0)) / (1 / 2) = _
      rw [c]
      have : margulesLn 1 (1 / 2) = Real.log 2 := by simp only [margulesLn, one_ne_zero, if_false]; ring
      rw [this, Real.exp_log l2]; norm_num
  have hS0 : SCALE ≠ 0 := by unfold SCALE; norm_num
  have key : (Q.after RT 1).found = false → (Q.after RT 2).aff * SCALE = -RT * Real.log 2 ∧ (Q.after RT 2).x 1 = 1 / 4 := by
    intro hf
    obtain ⟨k0, k1⟩ := g2 hf
    have p := pass (Q.after RT 1) (fun i hi => by
      rcases (by omega : i = 0 ∨ i = 1) with rfl | rfl
      · rw [k0]; norm_num
      · rw [k1]; norm_num)
    have e : (1 : ℝ) / (2 / 3) + 1 / 2 = 2 := by norm_num
    constructor
    · have := p.1; rw [k0, k1, e] at this; exact this
    · have := p.2 1 (by norm_num); rw [k0, k1, e] at this
      change (Q.pass RT (Q.after RT 1)).x 1 = _
      rw [this]; norm_num
  have lg := Real.log_two_lt_d9
  have lg0 := Real.log_two_gt_d9
  have hfound : (Q.after RT 1).found = false := by
    change (Q.pass RT (Q.after RT 0)).found = false
    have e : Q.aff RT (Q.after RT 0).g = (Q.after RT 1).aff := rfl
    simp only [Scheme.pass, e, decide_eq_false_iff_not, not_lt]
    have : (Q.after RT 1).aff ≤ 0 := by
      have : (Q.after RT 1).aff * SCALE ≤ 0 := by rw [a1, hRT0]; nlinarith
      unfold SCALE at this; linarith
    have f0 : (Q.after RT 0).aff = 100000 := rfl
    rw [f0, abs_of_nonneg (by linarith)]
    unfold SCALE; linarith
  obtain ⟨m, hm, hrun⟩ := run_two Q (T := 1000) (P := 1) (by norm_num) (by norm_num) (by omega) fun hf => by
    rw [← hRTd] at hf ⊢
    have := (key hf).1
    rw [← a1] at this
    exact mul_right_cancel₀ hS0 this
  rw [← hRTd] at hm hrun
  rcases hm with ⟨-, h⟩ | ⟨rfl, -⟩
  · rw [hfound] at h; cases h
  refine ⟨_, _, hrun, ?_⟩
  obtain ⟨k1, k2⟩ := key hfound
  rw [k1, ← hRTd]
  have c : Q.point (Q.after RT 2).x 0 = 1 / 4 := k2
  have ha : margules.act (Q.point (Q.after RT 2).x) 0 = 3 / 4 * Real.exp (margulesLn 0 (1 / 4)) := by
    change (1 - Q.point (Q.after RT 2).x 0) * Real.exp (margulesLn 0 (Q.point (Q.after RT 2).x 0)) = _
    rw [c]; norm_num
  rw [ha, hRT0, Real.log_mul (by norm_num) (Real.exp_pos _).ne', Real.log_exp]
  have e1 : Real.log (2 / 3) = -Real.log (3 / 2) := by rw [← Real.log_inv]; norm_num
  have e2 : Real.log (3 / 4) = Real.log (3 / 2) - Real.log 2 := by
    rw [← Real.log_div (by norm_num) (by norm_num)]; norm_num
  have e3 : 1 / 3 ≤ Real.log (3 / 2) := by
    have := Real.one_sub_inv_le_log_of_pos (x := 3 / 2) (by norm_num)
    norm_num at this ⊢
    linarith
  simp only [margulesLn, if_true]
  rw [e1, e2]
  nlinarith

/-! ### Pyroxenes -/

/-- **C72.** The reduction of species to end members keeps the total. -/
theorem C72_reduce_total (m : ℕ → ℝ) : ∑ i ∈ range 7, reduce m i = ∑ s ∈ range 14, m s := by
  simp [sum_range_succ, reduce]
  ring

/-- Specification: atoms of Na, Ca, Mg, Fe, Ti, Al, Si in the fourteen species (CaMgSi2O6, Mg2Si2O6, CaFeSi2O6,
Ca(Mg,Ti)AlSiO6, Ca(Mg,Ti)FeSiO6, CaFeAlSiO6, NaAlSi2O6, Ca(Fe,Ti)AlSiO6, Ca(Fe,Ti)FeSiO6, CaAl2SiO6, MgAl2SiO6,
FeAl2SiO6, NaFeSi2O6, Fe2Si2O6). -/
def formula (s : ℕ) : List ℚ :=
  [[0, 1, 1, 0, 0, 0, 2], [0, 0, 2, 0, 0, 0, 2], [0, 1, 0, 1, 0, 0, 2], [0, 1, 1 / 2, 0, 1 / 2, 1, 1],
    [0, 1, 1 / 2, 1, 1 / 2, 0, 1], [0, 1, 0, 1, 0, 1, 1], [1, 0, 0, 0, 0, 1, 2], [0, 1, 0, 1 / 2, 1 / 2, 1, 1],
    [0, 1, 0, 3 / 2, 1 / 2, 0, 1], [0, 1, 0, 0, 0, 2, 1], [0, 0, 1, 0, 0, 2, 1], [0, 0, 0, 1, 0, 2, 1],
    [1, 0, 0, 1, 0, 0, 2], [0, 0, 0, 2, 0, 0, 2]].getD s []

/-- **C72.** The reduction of species to end members keeps every element. -/
theorem C72_reduce_elements (m : ℕ → ℝ) (e : ℕ) (he : e < 7) :
    ∑ i ∈ range 7, reduce m i * ((formula i).getD e 0 : ℚ) = ∑ s ∈ range 14, m s * ((formula s).getD e 0 : ℚ) := by
  have : e = 0 ∨ e = 1 ∨ e = 2 ∨ e = 3 ∨ e = 4 ∨ e = 5 ∨ e = 6 := by omega
  rcases this with rfl | rfl | rfl | rfl | rfl | rfl | rfl <;>
  · simp [sum_range_succ, reduce, formula]
    try ring

/-- Potential of a species at given potentials of the end members, without the correction. -/
theorem dep_act {RT : ℝ} (hRT : RT ≠ 0) (mu u g0 corr : ℕ → ℝ) (s : ℕ) (h7 : 7 ≤ s) (hs : s < 14) :
    dep mu corr s + RT * Real.log (depAct RT u (dep g0 corr) s) = dep (fun i => mu i + u i) 0 s := by
  have : s = 7 ∨ s = 8 ∨ s = 9 ∨ s = 10 ∨ s = 11 ∨ s = 12 ∨ s = 13 := by omega
  rcases this with rfl | rfl | rfl | rfl | rfl | rfl | rfl <;>
  · simp only [dep, depAct]
    norm_num
    rw [mul_div_cancel₀ _ hRT]
    ring

theorem dep_const (A : ℝ) (f : ℕ → ℝ) (z : ℕ → Bool) (hf : ∀ i < 7, z i = false → f i = A) (s : ℕ) (hs : s < 14)
    (hz : depNull z s = false) : dep f 0 s = A := by
  have h : s < 7 ∨ s = 7 ∨ s = 8 ∨ s = 9 ∨ s = 10 ∨ s = 11 ∨ s = 12 ∨ s = 13 := by omega
  rcases h with h | rfl | rfl | rfl | rfl | rfl | rfl | rfl
  · have e1 : dep f 0 s = f s := by
      unfold dep
      rw [if_neg (by omega), if_neg (by omega), if_neg (by omega), if_neg (by omega), if_neg (by omega), if_neg (by omega),
        if_neg (by omega)]
    have e2 : depNull z s = z s := by
      unfold depNull
      rw [if_neg (by omega), if_neg (by omega), if_neg (by omega), if_neg (by omega), if_neg (by omega), if_neg (by omega),
        if_neg (by omega)]
    rw [e1]
    exact hf s h (e2 ▸ hz)
  all_goals
    simp [depNull] at hz
    simp [dep]
    simp_all
    try ring

theorem dep_lt (f corr : ℕ → ℝ) (s : ℕ) (h : s < 7) : dep f corr s = f s := by
  unfold dep
  rw [if_neg (by omega), if_neg (by omega), if_neg (by omega), if_neg (by omega), if_neg (by omega), if_neg (by omega),
    if_neg (by omega)]

theorem depNull_lt (z : ℕ → Bool) (s : ℕ) (h : s < 7) : depNull z s = z s := by
  unfold depNull
  rw [if_neg (by omega), if_neg (by omega), if_neg (by omega), if_neg (by omega), if_neg (by omega), if_neg (by omega),
    if_neg (by omega)]

/-- **C72.** The passes of the pyroxene routine stand still exactly at equilibrium: if the activity coefficients come from
species fractions `m` (excluded species absent, the others positive, total one; no end member cancels in the
reduction), the next pass returns `m` again, with the affinity `A`, if and only if `A = mu + RT ln a` for every end member
that is not excluded at the composition to which `m` reduces. The dependent species add no condition, and their energy
corrections (those of clinopyroxene, which are used for orthopyroxene too) do not matter. -/
theorem C72_pyroxene (X : Pyx) {T : ℝ} (hT : 0 < T) (z : ℕ → Bool) (mu g0 corr m : ℕ → ℝ) (s : Pass) (A : ℝ)
    (hX : ∀ b i, 0 < X.act b i ∧ X.muR b i = Magma.Thermo.MuO2.R * T * Real.log (X.act b i))
    (h2 : 2 ≤ (live 14 (depNull z)).length)
    (hm0 : ∀ i < 14, depNull z i = true → m i = 0) (hm1 : ∀ i < 14, depNull z i = false → 0 < m i)
    (hm2 : ∑ i ∈ range 14, m i = 1) (hred : ∀ i < 7, z i = false → reduce m i ≠ 0)
    (hs : ∃ g, s.g = (pyroxene X T z mu g0 corr).next m g) :
    ((∀ i < 14, ((pyroxene X T z mu g0 corr).pass (Magma.Thermo.MuO2.R * T) s).x i = m i) ∧
        ((pyroxene X T z mu g0 corr).pass (Magma.Thermo.MuO2.R * T) s).aff * SCALE = A) ↔
      ∀ i < 7, z i = false → A = mu i + Magma.Thermo.MuO2.R * T * Real.log (X.act (X.conv (reduce m)) i) := by
  set RT := Magma.Thermo.MuO2.R * T with hRTd
  have hRT : RT ≠ 0 := (RT_pos hT).ne'
  set Q := pyroxene X T z mu g0 corr with hQ
  set b := X.conv (reduce m) with hb
  obtain ⟨g, hs⟩ := hs
  obtain ⟨p0, p1, p2⟩ := C72_pass Q hRT s h2
  -- potentials of the species at the reduced composition
  have pot : ∀ i < 14, depNull z i = false →
      Q.mu i + RT * Real.log (s.g i) + RT * Real.log (m i) = dep (fun i => mu i + X.muR b i) 0 i := by
    intro i hi hz
    have hmi := hm1 i hi hz
    rcases Nat.lt_or_ge i 7 with h | h
    · have hz' : z i = false := by rw [← depNull_lt z i h]; exact hz
      have hg : s.g i = X.act b i / m i := by
        rw [hs]
        change (if i < 7 then (if reduce m i ≠ 0 then X.act b i / m i else g i) else _) = _
        rw [if_pos h, if_pos (hred i h hz')]
      rw [hg, Real.log_div (hX b i).1.ne' hmi.ne', dep_lt _ _ _ h, (hX b i).2]
      change dep mu corr i + _ + _ = _
      rw [dep_lt _ _ _ h]
      ring
    · have hg : s.g i = depAct RT (X.muR b) (dep g0 corr) i / m i := by
        rw [hs]
        change (if i < 7 then _ else if m i ≠ 0 then depAct RT (X.muR b) (dep g0 corr) i / m i else 1) = _
        rw [if_neg (by omega), if_pos hmi.ne']
      have hd : 0 < depAct RT (X.muR b) (dep g0 corr) i := by
        unfold depAct; split_ifs <;> exact Real.exp_pos _
      rw [hg, Real.log_div hd.ne' hmi.ne', ← dep_act hRT mu (X.muR b) g0 corr i h hi]
      change dep mu corr i + _ + _ = _
      ring
  constructor
  · rintro ⟨hx, hA⟩ i hi hz
    have hz' : depNull z i = false := by rw [depNull_lt z i hi]; exact hz
    have h1 := (p1 i (by change i < 14; omega) hz').2
    rw [hx i (by omega), hA] at h1
    have h3 := pot i (by omega) hz'
    rw [dep_lt _ _ _ hi, (hX b i).2] at h3
    linarith
  · intro heq
    have all : ∀ i < 14, depNull z i = false → A = Q.mu i + RT * Real.log (s.g i) + RT * Real.log (m i) := by
      intro i hi hz
      rw [pot i hi hz]
      exact (dep_const A _ z (fun i hi hz => by rw [(hX b i).2]; exact (heq i hi hz).symm) i hi hz).symm
    obtain ⟨u1, u2⟩ := C71_guess_unique (bare Q.ns) RT Q.zero (Q.muG RT s.g) hRT (live_two h2) m A hm0
      (fun i hi hz => ⟨hm1 i hi hz, by unfold Scheme.muG; exact all i hi hz⟩) hm2
    refine ⟨fun i hi => ?_, ?_⟩
    · rw [u2 i hi]; exact all_eq Q RT s.g h2 i hi
    · rw [u1]; exact aff_eq Q RT s.g h2

/-! ### Failure -/

/-- A binary phase whose activity coefficients are 1 and 1/3 where the first end member has at least half, and 1/6 and 1/2
elsewhere. -/
def swing : Soln where
  na := 2
  conv := fun x _ => x 1
  dxdr := fun _ i _ => if i = 0 then -1 else 1
  act := fun r i => (if i = 0 then 1 - r 0 else r 0) * if r 0 ≤ 1 / 2 then (if i = 0 then 1 else 1 / 3) else
    (if i = 0 then 1 / 6 else 1 / 2)
  dact := fun _ _ _ => 0
  test := fun r => decide (0 ≤ r 0 ∧ r 0 ≤ 1)

/-- **C72.** The iteration need not converge, and then the result is used nevertheless: for the phase `swing` with
potentials equal to those in the liquid the generic routine reports failure, and the affinity and composition of its last
pass are stored as the estimate. (A failure of the least-squares routine stores zeros.) -/
theorem C72_unconverged : ∃ A r, (generic swing (fun _ => false) fun _ => 0).run 1000 1 = some (A, r, false) ∧
    estimate 1000 1 (.substitution (generic swing (fun _ => false) fun _ => 0)) = (A, r) ∧ A < 0 ∧
    estimate 1000 1 (.leastSquares none) = (0, 0) := by
  set Q := generic swing (fun _ => false) fun _ => 0 with hQ
  obtain ⟨RT, hRTd⟩ : ∃ RT, RT = Magma.Thermo.MuO2.R * 1000 := ⟨_, rfl⟩
  have hRT0 : RT = 8314.3 := by rw [hRTd]; unfold Magma.Thermo.MuO2.R; norm_num
  have hRT : RT ≠ 0 := by rw [hRT0]; norm_num
  have hlive : live Q.ns Q.zero = [0, 1] := by
    change live 2 (fun _ => false) = [0, 1]
    simp [live, List.range_succ]
  have h2 : 2 ≤ (live Q.ns Q.zero).length := by rw [hlive]; simp
  have hz : ∀ i, Q.zero i = false := fun _ => rfl
  have hmu : ∀ i, Q.mu i = 0 := fun _ => rfl
  have pass := fun s hg => binary_pass Q RT hRT rfl hz hmu s hg
  have lg := Real.log_two_lt_d9
  have lg0 := Real.log_two_gt_d9
  have hS : ∀ a b : ℝ, a * SCALE = b → a = b / 1000 := by
    intro a b h; rw [← h, SCALE]; ring
  have l4 : Real.log 4 = 2 * Real.log 2 := by
    rw [show (4 : ℝ) = 2 ^ 2 by norm_num, Real.log_pow]; norm_num
  have l8 : Real.log 8 = 3 * Real.log 2 := by
    rw [show (8 : ℝ) = 2 ^ 3 by norm_num, Real.log_pow]; norm_num
  -- the activity coefficients after a pass
  have gam : ∀ s : Pass, (Q.pass RT s).found = false → (Q.pass RT s).x 0 = 1 - (Q.pass RT s).x 1 →
      0 < (Q.pass RT s).x 0 → 0 < (Q.pass RT s).x 1 →
      (Q.pass RT s).g 0 = (if (Q.pass RT s).x 1 ≤ 1 / 2 then 1 else 1 / 6) ∧
      (Q.pass RT s).g 1 = (if (Q.pass RT s).x 1 ≤ 1 / 2 then 1 / 3 else 1 / 2) := by
    intro s hf hs h0 h1
    have e := next_g Q s hf
    constructor
    · rw [e, hQ, generic_next, ← hQ, if_pos ⟨by simp [swing], h0.ne'⟩]
      change (1 - (Q.pass RT s).x 1) * (if (Q.pass RT s).x 1 ≤ 1 / 2 then 1 else 1 / 6) / (Q.pass RT s).x 0 = _
      rw [← hs, mul_div_cancel_left₀ _ h0.ne']
    · rw [e, hQ, generic_next, ← hQ, if_pos ⟨by simp [swing], h1.ne'⟩]
      change (Q.pass RT s).x 1 * (if (Q.pass RT s).x 1 ≤ 1 / 2 then 1 / 3 else 1 / 2) / (Q.pass RT s).x 1 = _
      rw [mul_div_cancel_left₀ _ h1.ne']
  have step1 : ∀ s : Pass, s.g 0 = 1 → s.g 1 = 1 / 3 → (Q.pass RT s).aff * SCALE = -RT * (2 * Real.log 2) ∧
      (Q.pass RT s).x 0 = 1 / 4 ∧ (Q.pass RT s).x 1 = 3 / 4 := by
    intro s k0 k1
    have p := pass s (fun i hi => by
      rcases (by omega : i = 0 ∨ i = 1) with rfl | rfl
      · rw [k0]; norm_num
      · rw [k1]; norm_num)
    rw [k0, k1, show (1 : ℝ) / 1 + 1 / (1 / 3) = 4 by norm_num, l4] at p
    refine ⟨p.1, ?_, ?_⟩
    · rw [p.2 0 (by norm_num), k0]; norm_num
    · rw [p.2 1 (by norm_num), k1]; norm_num
  have step2 : ∀ s : Pass, s.g 0 = 1 / 6 → s.g 1 = 1 / 2 → (Q.pass RT s).aff * SCALE = -RT * (3 * Real.log 2) ∧
      (Q.pass RT s).x 0 = 3 / 4 ∧ (Q.pass RT s).x 1 = 1 / 4 := by
    intro s k0 k1
    have p := pass s (fun i hi => by
      rcases (by omega : i = 0 ∨ i = 1) with rfl | rfl
      · rw [k0]; norm_num
      · rw [k1]; norm_num)
    rw [k0, k1, show (1 : ℝ) / (1 / 6) + 1 / (1 / 2) = 8 by norm_num, l8] at p
    refine ⟨p.1, ?_, ?_⟩
    · rw [p.2 0 (by norm_num), k0]; norm_num
    · rw [p.2 1 (by norm_num), k1]; norm_num
  have notfound : ∀ s : Pass, ∀ a b : ℝ, s.aff = a → (Q.pass RT s).aff = b → 1 / 10000 ≤ |a - b| →
      (Q.pass RT s).found = false := by
    intro s a b ha hb hab
    subst ha hb
    unfold Scheme.pass at hab ⊢
    refine decide_eq_false ?_
    rw [SCALE, not_lt]
    refine le_trans (by norm_num) hab
  have s1 : (Q.after RT 1).found = false ∧ (Q.after RT 1).aff = -RT * Real.log 2 / 1000 ∧
      (Q.after RT 1).g 0 = 1 ∧ (Q.after RT 1).g 1 = 1 / 3 := by
    have p := pass (Q.after RT 0) (fun i _ => by simp [Scheme.after, first])
    have hg0 : ∀ i, (Q.after RT 0).g i = 1 := fun _ => rfl
    simp only [hg0] at p
    rw [show (1 : ℝ) / 1 + 1 / 1 = 2 by norm_num] at p
    have ha := hS _ _ p.1
    have hf : (Q.pass RT (Q.after RT 0)).found = false := by
      refine notfound _ 100000 _ rfl ha ?_
      rw [hRT0, abs_of_nonneg (by nlinarith)]; nlinarith
    have x0 := p.2 0 (by norm_num)
    have x1 := p.2 1 (by norm_num)
    obtain ⟨g0, g1⟩ := gam _ hf (by rw [x0, x1]; norm_num) (by rw [x0]; norm_num) (by rw [x1]; norm_num)
    rw [x1, if_pos (by norm_num)] at g0 g1
    exact ⟨hf, ha, g0, g1⟩
  have cyc : ∀ k, ((Q.after RT (2 * k + 2)).found = false ∧ (Q.after RT (2 * k + 2)).aff = -RT * (2 * Real.log 2) / 1000 ∧
      (Q.after RT (2 * k + 2)).g 0 = 1 / 6 ∧ (Q.after RT (2 * k + 2)).g 1 = 1 / 2) ∧
      ((Q.after RT (2 * k + 3)).found = false ∧ (Q.after RT (2 * k + 3)).aff = -RT * (3 * Real.log 2) / 1000 ∧
      (Q.after RT (2 * k + 3)).g 0 = 1 ∧ (Q.after RT (2 * k + 3)).g 1 = 1 / 3) := by
    have even : ∀ s : Pass, ∀ a, (s.aff = -RT * (a * Real.log 2) / 1000 ∧ (a = 1 ∨ a = 3)) → s.g 0 = 1 → s.g 1 = 1 / 3 →
        ((Q.pass RT s).found = false ∧ (Q.pass RT s).aff = -RT * (2 * Real.log 2) / 1000 ∧
        (Q.pass RT s).g 0 = 1 / 6 ∧ (Q.pass RT s).g 1 = 1 / 2) := by
      intro s a ⟨ha, ha'⟩ k0 k1
      obtain ⟨q1, q2, q3⟩ := step1 s k0 k1
      have hb := hS _ _ q1
      have hf : (Q.pass RT s).found = false := by
        refine notfound _ _ _ ha hb ?_
        rw [hRT0]
        rcases ha' with rfl | rfl
        · rw [abs_of_nonneg (by nlinarith)]; nlinarith
        · rw [abs_of_nonpos (by nlinarith)]; nlinarith
      obtain ⟨g0, g1⟩ := gam _ hf (by rw [q2, q3]; norm_num) (by rw [q2]; norm_num) (by rw [q3]; norm_num)
      rw [q3, if_neg (by norm_num)] at g0 g1
      exact ⟨hf, hb, g0, g1⟩
    have odd : ∀ s : Pass, s.aff = -RT * (2 * Real.log 2) / 1000 → s.g 0 = 1 / 6 → s.g 1 = 1 / 2 →
        ((Q.pass RT s).found = false ∧ (Q.pass RT s).aff = -RT * (3 * Real.log 2) / 1000 ∧
        (Q.pass RT s).g 0 = 1 ∧ (Q.pass RT s).g 1 = 1 / 3) := by
      intro s ha k0 k1
      obtain ⟨q1, q2, q3⟩ := step2 s k0 k1
      have hb := hS _ _ q1
      have hf : (Q.pass RT s).found = false := by
        refine notfound _ _ _ ha hb ?_
        rw [hRT0, abs_of_nonneg (by nlinarith)]; nlinarith
      obtain ⟨g0, g1⟩ := gam _ hf (by rw [q2, q3]; norm_num) (by rw [q2]; norm_num) (by rw [q3]; norm_num)
      rw [q3, if_pos (by norm_num)] at g0 g1
      exact ⟨hf, hb, g0, g1⟩
    intro k
    induction k with
    | zero =>
      have e := even (Q.after RT 1) 1 ⟨by rw [s1.2.1]; ring, Or.inl rfl⟩ s1.2.2.1 s1.2.2.2
      exact ⟨e, odd (Q.after RT 2) e.2.1 e.2.2.1 e.2.2.2⟩
    | succ k ih =>
      have e := even (Q.after RT (2 * k + 3)) 3 ⟨ih.2.2.1, Or.inr rfl⟩ ih.2.2.2.1 ih.2.2.2.2
      exact ⟨e, odd (Q.after RT (2 * k + 4)) e.2.1 e.2.2.1 e.2.2.2⟩
  obtain ⟨m, m1, m2, m3, m4, m5⟩ := C72_run Q (T := 1000) (P := 1) (by norm_num) (by norm_num) (by omega)
  rw [← hRTd] at m3 m4 m5
  have hm : m = 100 := by
    by_contra hne
    have h5 := m5 (by omega)
    obtain ⟨k, rfl⟩ : ∃ k, m = k + 1 := ⟨m - 1, by omega⟩
    have hf : (Q.after RT (k + 1)).found = true := by
      change (Q.pass RT (Q.after RT k)).found = true
      unfold Scheme.pass
      refine decide_eq_true ?_
      change |(Q.after RT k).aff * SCALE - (Q.after RT (k + 1)).aff * SCALE| < 1 / 10 at h5
      rw [← sub_mul, abs_mul, SCALE, abs_of_pos (by norm_num : (0 : ℝ) < 1000)] at h5
      rw [SCALE]
      change |(Q.after RT k).aff - (Q.after RT (k + 1)).aff| < 1 / 10 / 1000
      linarith
    rcases Nat.eq_zero_or_pos k with h | h
    · subst h; rw [s1.1] at hf; cases hf
    · rcases Nat.even_or_odd' k with ⟨j, hj | hj⟩
      · have := (cyc (j - 1)).2.1
        rw [show 2 * (j - 1) + 3 = k + 1 by omega, hf] at this; cases this
      · have := (cyc j).1.1
        rw [show 2 * j + 2 = k + 1 by omega, hf] at this; cases this
  subst hm
  have hA : (Q.after RT 100).aff = -RT * (2 * Real.log 2) / 1000 := by
    have := (cyc 49).1.2.1; simpa using this
  have hrun : Q.run 1000 1 = some ((Q.after RT 100).aff * SCALE, Q.point (Q.after RT 100).x, false) := by
    rw [m3]; simp
  refine ⟨_, _, hrun, ?_, ?_, rfl⟩
  · simp only [estimate, hrun]
  · rw [hA, hRT0, SCALE]; nlinarith

/-! ### The hypotheses are met -/

/-- `C72_ideal` and, through it, `C72_generic` apply to the binary ideal solution. -/
example : ∃ x, (generic binary (fun _ => false) fun i => if i = 0 then 100 else -2000).run 1000 1
    = some (guessAffinity binary (Magma.Thermo.MuO2.R * 1000) (fun _ => false) fun i => if i = 0 then 100 else -2000,
      binary.conv x, true) := by
  obtain ⟨x, h, -⟩ := C72_ideal (zero := fun _ => false) (mu := fun i => if i = 0 then 100 else -2000) (T := 1000)
    (P := 1) binary_ideal (by norm_num) (by norm_num) (by simp [live, binary, List.range_succ])
  exact ⟨x, h⟩

/-- `C72_single` applies with the second end member excluded. -/
example : live binary.na (fun i => decide (i = 1)) = [0] ∧
    ∀ x : ℕ → ℝ, (∀ i < binary.na, x i = if i = 0 then 1 else 0) → binary.act (binary.conv x) 0 = 1 := by
  refine ⟨by simp [live, binary, List.range_succ], fun x hx => ?_⟩
  have := hx 1 (by simp [binary])
  simp [binary]
  simpa using this

/-- `C72_pyroxene` applies to a pyroxene with all species. -/
example : let m : ℕ → ℝ := fun s => if s = 4 then 2 / 15 else 1 / 15
    let z : ℕ → Bool := fun _ => false
    2 ≤ (live 14 (depNull z)).length ∧ (∀ i < 14, depNull z i = true → m i = 0) ∧
      (∀ i < 14, depNull z i = false → 0 < m i) ∧ ∑ i ∈ range 14, m i = 1 ∧ ∀ i < 7, z i = false → reduce m i ≠ 0 := by
  intro m z
  have hz : ∀ i, depNull z i = false := by intro i; simp [depNull, z]
  refine ⟨?_, fun i _ h => ?_, fun i _ _ => ?_, ?_, fun i hi _ => ?_⟩
  · simp [live, hz]
  · rw [hz] at h; cases h
  · simp only [m]; split_ifs <;> norm_num
  · simp [m, sum_range_succ]; norm_num
  · have : i = 0 ∨ i = 1 ∨ i = 2 ∨ i = 3 ∨ i = 4 ∨ i = 5 ∨ i = 6 := by omega
    rcases this with rfl | rfl | rfl | rfl | rfl | rfl | rfl <;> norm_num [reduce, m]

end

end Magma.Engine.Saturation
