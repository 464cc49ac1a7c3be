import Mathlib.Data.Rat.Floor
import Mathlib.Algebra.Order.Archimedean.Basic
import Mathlib.RingTheory.Coprime.Lemmas
import Mathlib.Data.Rat.Lemmas
import Mathlib.Algebra.Order.Floor.Ring
import Mathlib.RingTheory.Coprime.Basic
import Mathlib.Tactic.Linarith
import Mathlib.Tactic.Ring
import Mathlib.Tactic.FieldSimp
import Mathlib.Tactic.NormNum
import Mathlib.Tactic.Positivity
import Mathlib.Tactic.LinearCombination

/-!
`frac`, /repo/sources/frac.c: approximation of a positive number by a fraction.

Every double is a rational number, so `v` and `error` range over ℚ. The arithmetic is exact: the rounding of doubles and the
overflow of `int` (which C leaves undefined, already for `v` above 2147483647 although `MAX` is 4e10) are not modelled.
-/

namespace Magma.Num.FracApprox

/-- `*n`, `*d`, `N`, `D`, frac.c 41. -/
structure St where
  n : ℤ
  d : ℤ
  N : ℤ
  D : ℤ
deriving DecidableEq

/-- From label `three` to label `four`, frac.c 58-69; second component: `r`. -/
def three (v : ℚ) (s : St) : St × ℚ :=
  if v * s.d = s.n then (s, 0)
  else
    let r := (s.N - v * s.D) / (v * s.d - s.n)
    if 1 < r then (s, r) else (⟨s.N, s.D, s.n, s.d⟩, r)

/-- frac.c 70: `epsilon`. -/
def eps (v : ℚ) (s : St) : ℚ := |1 - s.n / (v * s.d)|

/-- `do { m *= 10.0; } while (m*epsilon < 1.0)`, frac.c 74-76: from `m` the loop ends with `m'`. -/
inductive Scale (e : ℚ) : ℚ → ℚ → Prop where
  | stop (m : ℚ) : ¬ (m * 10) * e < 1 → Scale e m (m * 10)
  | more (m m' : ℚ) : (m * 10) * e < 1 → Scale e (m * 10) m' → Scale e m m'

/-- From label `four` to label `six`, frac.c 70-77: `epsilon` is kept or rounded to one digit. -/
inductive Rounded (e error : ℚ) : ℚ → Prop where
  | keep : e ≤ error → Rounded e error e
  | round (m : ℚ) : ¬ e ≤ error → Scale e 1 m → Rounded e error (1 / m * ⌊(1 / 2 : ℚ) + m * e⌋)

/-- From label `one` to label `three`, frac.c 50-57. -/
def one (s : St) (r : ℚ) : St :=
  let r := if 1 < r then r else 1 / r
  let N := s.N + s.n * ⌊r⌋
  let D := s.D + s.d * ⌊r⌋
  ⟨s.n + N, s.d + D, N, D⟩

/-- What a run from label `three` returns, with `*n` and `*d`: frac.c 58-81. -/
inductive Runs (v error : ℚ) : St → ℚ → ℤ → ℤ → Prop where
  | ret (s : St) (e : ℚ) : Rounded (eps v (three v s).1) error e → e ≤ error →
      Runs v error s e (three v s).1.n (three v s).1.d
  | giveUp (s : St) (e : ℚ) : Rounded (eps v (three v s).1) error e → ¬ e ≤ error → (three v s).2 = 0 →
      Runs v error s (-1) (three v s).1.n (three v s).1.d
  | again (s : St) (e ret : ℚ) (n d : ℤ) : Rounded (eps v (three v s).1) error e → ¬ e ≤ error → (three v s).2 ≠ 0 →
      Runs v error (one (three v s).1 (three v s).2) ret n d → Runs v error s ret n d

/-- frac.c 45: `v < MIN || v > MAX || error < 0.0` -/
def outOfRange (v error : ℚ) : Prop := v < 3 / 10 ^ 10 ∨ 4 * 10 ^ 10 < v ∨ error < 0

/-- `frac(v, &n, &d, error)`, frac.c 14-82: the value returned and the contents of `n`, `d` (`none`: not written). -/
inductive Frac (v error : ℚ) : ℚ → Option (ℤ × ℤ) → Prop where
  | range : outOfRange v error → Frac v error (-1) none
  | run (ret : ℚ) (n d : ℤ) : ¬ outOfRange v error → Runs v error ⟨⌊v⌋, 1, ⌊v⌋ + 1, 1⟩ ret n d → Frac v error ret (some (n, d))

/-! ### Lemmas -/

/-- The two fractions enclose `v`, `n/d` on the side given by `σ`, and are neighbours. -/
structure Inv (v : ℚ) (σ : ℤ) (s : St) : Prop where
  sign : σ = 1 ∨ σ = -1
  det : s.N * s.d - s.n * s.D = σ
  d0 : 0 < s.d
  D0 : 0 < s.D
  n0 : 0 ≤ s.n
  N0 : 0 ≤ s.N
  lo : 0 ≤ (σ : ℚ) * (v * s.d - s.n)
  hi : 0 ≤ (σ : ℚ) * (s.N - v * s.D)

theorem start_inv (v : ℚ) (hv : 0 < v) : Inv v 1 ⟨⌊v⌋, 1, ⌊v⌋ + 1, 1⟩ where
  sign := Or.inl rfl
  det := by simp
  d0 := one_pos
  D0 := one_pos
  n0 := Int.floor_nonneg.mpr hv.le
  N0 := by have := Int.floor_nonneg.mpr hv.le; show 0 ≤ ⌊v⌋ + 1; omega
  lo := by have := Int.floor_le v; push_cast; linarith
  hi := by have := Int.lt_floor_add_one v; push_cast; linarith

/-- After `three`: an exact result, or strict enclosure with the better fraction in `n/d`. -/
theorem three_inv (v : ℚ) (s : St) (σ : ℤ) (h : Inv v σ s) (out : St × ℚ) (ho : three v s = out) :
    (∃ τ, Inv v τ out.1) ∧ (out.1.d + out.1.D = s.d + s.D) ∧
      ((v * out.1.d = out.1.n) ∨
      (∃ τ, Inv v τ out.1 ∧ 0 < (τ : ℚ) * (v * out.1.d - out.1.n) ∧ out.2 ≠ 0 ∧
        1 ≤ (if 1 < out.2 then out.2 else 1 / out.2) ∧
        (if 1 < out.2 then out.2 else 1 / out.2) * (v * out.1.d - out.1.n) = out.1.N - v * out.1.D)) := by
  unfold three at ho
  by_cases h1 : v * s.d = s.n
  · rw [if_pos h1] at ho
    subst ho
    exact ⟨⟨σ, h⟩, rfl, Or.inl h1⟩
  · rw [if_neg h1] at ho
    simp only at ho
    have ha : v * s.d - s.n ≠ 0 := sub_ne_zero.mpr h1
    have hσ : (σ : ℚ) ≠ 0 := by rcases h.sign with e | e <;> rw [e] <;> norm_num
    have hlo : 0 < (σ : ℚ) * (v * s.d - s.n) := lt_of_le_of_ne h.lo (Ne.symm (mul_ne_zero hσ ha))
    by_cases h2 : 1 < (s.N - v * s.D) / (v * s.d - s.n)
    · rw [if_pos h2] at ho
      subst ho
      refine ⟨⟨σ, h⟩, rfl, Or.inr ⟨σ, h, hlo, by intro e; simp only at e; rw [e] at h2; norm_num at h2, ?_, ?_⟩⟩
      · rw [if_pos h2]; exact h2.le
      · rw [if_pos h2]; exact div_mul_cancel₀ _ ha
    · rw [if_neg h2] at ho
      subst ho
      have hinv : Inv v (-σ) ⟨s.N, s.D, s.n, s.d⟩ :=
        { sign := by rcases h.sign with e | e <;> simp [e]
          det := by have := h.det; simp only; linarith
          d0 := h.D0, D0 := h.d0, n0 := h.N0, N0 := h.n0
          lo := by have := h.hi; push_cast; linarith
          hi := by have := h.lo; push_cast; linarith }
      refine ⟨⟨-σ, hinv⟩, by simp only; omega, ?_⟩
      by_cases h3 : v * s.D = s.N
      · exact Or.inl h3
      · right
        have hb : (s.N : ℚ) - v * s.D ≠ 0 := sub_ne_zero.mpr (Ne.symm h3)
        have hhi : 0 < (σ : ℚ) * (s.N - v * s.D) := lt_of_le_of_ne h.hi (Ne.symm (mul_ne_zero hσ hb))
        have hr : (s.N - v * s.D) / (v * s.d - s.n) ≠ 0 := div_ne_zero hb ha
        have hrpos : 0 < (s.N - v * s.D) / (v * s.d - s.n) := by
          rw [← mul_div_mul_left _ _ hσ]; positivity
        refine ⟨-σ, hinv, by simp only; push_cast; linarith, hr, ?_, ?_⟩
        · rw [if_neg h2, le_div_iff₀ hrpos]; linarith [not_lt.mp h2]
        · simp only
          rw [if_neg h2, one_div_div, div_mul_eq_mul_div, div_eq_iff hb]
          ring

theorem one_inv (v : ℚ) (s : St) (r ρ : ℚ) (σ : ℤ) (h : Inv v σ s) (hlo : 0 < (σ : ℚ) * (v * s.d - s.n))
    (hρ : (if 1 < r then r else 1 / r) = ρ) (h1 : 1 ≤ ρ) (h2 : ρ * (v * s.d - s.n) = s.N - v * s.D) :
    Inv v σ (one s r) ∧ s.d + s.D < (one s r).d + (one s r).D := by
  unfold one
  rw [hρ]
  simp only
  have hk1 : 1 ≤ ⌊ρ⌋ := Int.le_floor.mpr (by simpa using h1)
  have hk2 := Int.floor_le ρ
  have hk3 := Int.lt_floor_add_one ρ
  have hd := h.d0
  have hD := h.D0
  have hn := h.n0
  have hN := h.N0
  set k := ⌊ρ⌋ with hk
  have e : (σ : ℚ) * (s.N - v * s.D) = ρ * ((σ : ℚ) * (v * s.d - s.n)) := by rw [← h2]; ring
  have hdk : 0 < s.d * k := by positivity
  have hnk : 0 ≤ s.n * k := by positivity
  refine ⟨⟨h.sign, ?_, ?_, ?_, ?_, ?_, ?_, ?_⟩, by omega⟩
  · have := h.det; simp only; linear_combination this
  · simp only; omega
  · simp only; omega
  · simp only; omega
  · simp only; omega
  · push_cast
    nlinarith
  · push_cast
    nlinarith

theorem scale_exists (e : ℚ) (he : 0 < e) (m : ℚ) (hm : 1 ≤ m) : ∃ m', Scale e m m' := by
  obtain ⟨k, hk⟩ : ∃ k : ℕ, 1 < k * e := by
    obtain ⟨k, hk⟩ := exists_nat_gt (1 / e)
    exact ⟨k, by rwa [div_lt_iff₀ he] at hk⟩
  have : ∀ (j : ℕ) (m : ℚ), 1 ≤ m → (k : ℚ) - j ≤ m → ∃ m', Scale e m m' := by
    intro j
    induction j with
    | zero =>
      intro m hm h
      exact ⟨_, .stop m (by push_cast at h; nlinarith)⟩
    | succ j ih =>
      intro m hm h
      by_cases hs : (m * 10) * e < 1
      · obtain ⟨m', h'⟩ := ih (m * 10) (by linarith) (by push_cast at h; linarith)
        exact ⟨m', .more m m' hs h'⟩
      · exact ⟨_, .stop m hs⟩
  exact this k m hm (by linarith)

theorem scale_spec (e m m' : ℚ) (hm : 0 < m) (h : Scale e m m') : 0 < m' ∧ 1 ≤ m' * e := by
  induction h with
  | stop m h => exact ⟨by linarith, not_lt.mp h⟩
  | more m m' _ _ ih => exact ih (by linarith)

theorem scale_unique (e m a b : ℚ) (ha : Scale e m a) (hb : Scale e m b) : a = b := by
  induction ha with
  | stop m h => cases hb with
    | stop _ _ => rfl
    | more _ _ h' _ => exact absurd h' h
  | more m m' h _ ih => cases hb with
    | stop _ h' => exact absurd h h'
    | more _ _ _ h2 => exact ih h2

theorem rounded_unique (e error a b : ℚ) (ha : Rounded e error a) (hb : Rounded e error b) : a = b := by
  cases ha with
  | keep h => cases hb with
    | keep _ => rfl
    | round _ h' _ => exact absurd h h'
  | round m h hs => cases hb with
    | keep h' => exact absurd h' h
    | round m' _ hs' => rw [scale_unique e 1 m m' hs hs']

theorem rounded_exists (e error : ℚ) (h0 : 0 ≤ error) : ∃ r, Rounded e error r := by
  by_cases h : e ≤ error
  · exact ⟨e, .keep h⟩
  · obtain ⟨m, hm⟩ := scale_exists e (by linarith) 1 (le_refl _)
    exact ⟨_, .round m h hm⟩

/-- Rounding to one digit loses at most a third of the true value. -/
theorem rounded_spec (e error r : ℚ) (h0 : 0 ≤ error) (he : 0 ≤ e) (h : Rounded e error r) : 0 ≤ r ∧ 2 * e ≤ 3 * r := by
  cases h with
  | keep h => exact ⟨he, by linarith⟩
  | round m h hs =>
    obtain ⟨hm, h1⟩ := scale_spec e 1 m one_pos hs
    have hk1 : 1 ≤ ⌊(1 / 2 : ℚ) + m * e⌋ := Int.le_floor.mpr (by push_cast; linarith)
    have hk3 := Int.lt_floor_add_one ((1 / 2 : ℚ) + m * e)
    set k := ⌊(1 / 2 : ℚ) + m * e⌋
    have hkq : (1 : ℚ) ≤ k := by exact_mod_cast hk1
    refine ⟨by positivity, ?_⟩
    have : 2 * (m * e) ≤ 3 * k := by linarith
    have e2 : 3 * (1 / m * (k : ℚ)) = (3 * k) / m := by ring
    rw [e2, le_div_iff₀ hm]
    linarith

theorem eps_zero (v : ℚ) (s : St) (hv : 0 < v) (hd : 0 < s.d) (h : v * s.d = s.n) : eps v s = 0 := by
  unfold eps
  have hdq : (0 : ℚ) < s.d := by exact_mod_cast hd
  rw [← h, div_self (by positivity), sub_self, abs_zero]

theorem coprime (v : ℚ) (s : St) (σ : ℤ) (h : Inv v σ s) : IsCoprime s.n s.d := by
  have := h.det
  rcases h.sign with e | e
  · exact ⟨-s.D, s.N, by rw [e] at this; linarith⟩
  · exact ⟨s.D, -s.N, by rw [e] at this; linarith⟩

theorem runs_spec (v error : ℚ) (hv : 0 < v) (h0 : 0 ≤ error) (s : St) (ret : ℚ) (n d : ℤ) (hr : Runs v error s ret n d)
    (σ : ℤ) (h : Inv v σ s) :
    0 ≤ ret ∧ ret ≤ error ∧ 0 ≤ n ∧ 0 < d ∧ IsCoprime n d ∧ |1 - n / (v * d)| ≤ 3 / 2 * ret := by
  induction hr generalizing σ with
  | ret s e hro hle =>
    obtain ⟨⟨τ, hτ⟩, _, _⟩ := three_inv v s σ h _ rfl
    obtain ⟨r0, r1⟩ := rounded_spec _ _ _ h0 (abs_nonneg _) hro
    exact ⟨r0, hle, hτ.n0, hτ.d0, coprime v _ τ hτ, by have r2 : 2 * |1 - ((three v s).1.n : ℚ) / (v * (three v s).1.d)| ≤ 3 * e := r1; linarith⟩
  | giveUp s e hro hle hz =>
    exfalso
    obtain ⟨⟨τ, hτ⟩, _, h3 | ⟨τ, _, _, h3, _⟩⟩ := three_inv v s σ h _ rfl
    · rw [eps_zero v _ hv hτ.d0 h3] at hro
      cases hro with
      | keep h => exact hle h
      | round _ h _ => exact h h0
    · exact h3 hz
  | again s e ret n d hro hle hz _ ih =>
    obtain ⟨⟨τ, hτ⟩, _, h3 | ⟨τ, h4, h5, _, h6, h7⟩⟩ := three_inv v s σ h _ rfl
    · exfalso
      rw [eps_zero v _ hv hτ.d0 h3] at hro
      cases hro with
      | keep h => exact hle h
      | round _ h _ => exact h h0
    · exact ih τ (one_inv v _ _ _ τ h4 h5 rfl h6 h7).1

/-- A strict enclosure with neighbouring fractions bounds the denominators by that of `v`. -/
theorem bound (v : ℚ) (s : St) (σ : ℤ) (h : Inv v σ s) (h1 : v * s.d ≠ s.n) (h2 : v * s.D ≠ s.N) : s.d + s.D ≤ v.den := by
  have hq : (0 : ℚ) < v.den := by exact_mod_cast v.den_pos
  have hv : v = v.num / v.den := (Rat.num_div_den v).symm
  have hvq : v * v.den = v.num := by rw [eq_comm]; exact (Rat.mul_den_eq_num v).symm
  have hσ : (σ : ℚ) ≠ 0 := by rcases h.sign with e | e <;> rw [e] <;> norm_num
  have ha : 0 < (σ : ℚ) * (v * s.d - s.n) := lt_of_le_of_ne h.lo (Ne.symm (mul_ne_zero hσ (sub_ne_zero.mpr h1)))
  have hb : 0 < (σ : ℚ) * (s.N - v * s.D) := lt_of_le_of_ne h.hi (Ne.symm (mul_ne_zero hσ (sub_ne_zero.mpr h2.symm)))
  have ea : ((σ * (v.num * s.d - s.n * v.den) : ℤ) : ℚ) = (σ : ℚ) * (v * s.d - s.n) * v.den := by
    push_cast; rw [← hvq]; ring
  have eb : ((σ * (s.N * v.den - v.num * s.D) : ℤ) : ℚ) = (σ : ℚ) * (s.N - v * s.D) * v.den := by
    push_cast; rw [← hvq]; ring
  have ia : 1 ≤ σ * (v.num * s.d - s.n * v.den) := by
    have : (0 : ℚ) < ((σ * (v.num * s.d - s.n * v.den) : ℤ) : ℚ) := by rw [ea]; positivity
    have : 0 < σ * (v.num * s.d - s.n * v.den) := by exact_mod_cast this
    omega
  have ib : 1 ≤ σ * (s.N * v.den - v.num * s.D) := by
    have : (0 : ℚ) < ((σ * (s.N * v.den - v.num * s.D) : ℤ) : ℚ) := by rw [eb]; positivity
    have : 0 < σ * (s.N * v.den - v.num * s.D) := by exact_mod_cast this
    omega
  have hd := h.d0
  have hD := h.D0
  have hσ2 : σ * σ = 1 := by rcases h.sign with e | e <;> rw [e] <;> rfl
  have key : σ * (s.N * v.den - v.num * s.D) * s.d + σ * (v.num * s.d - s.n * v.den) * s.D = v.den := by
    have := h.det
    calc _ = σ * (s.N * s.d - s.n * s.D) * v.den := by ring
      _ = v.den := by rw [this, hσ2, one_mul]
  nlinarith

theorem runs_exists (v error : ℚ) (hv : 0 < v) (h0 : 0 ≤ error) : ∀ (fuel : ℕ) (s : St) (σ : ℤ), Inv v σ s →
    v.den < s.d + s.D + fuel → ∃ ret n d, Runs v error s ret n d := by
  intro fuel
  induction fuel with
  | zero =>
    intro s σ h hf
    obtain ⟨e, he⟩ := rounded_exists (eps v (three v s).1) error h0
    obtain ⟨⟨τ, hτ⟩, hs, h3 | ⟨τ, h4, h5, _, h6, h7⟩⟩ := three_inv v s σ h _ rfl
    · refine ⟨e, _, _, .ret s e he ?_⟩
      rw [eps_zero v _ hv hτ.d0 h3] at he
      cases he with
      | keep h => exact h
      | round _ h _ => exact absurd h0 h
    · exfalso
      by_cases hx : v * (three v s).1.D = (three v s).1.N
      · rw [hx, sub_self] at h7
        have : v * (three v s).1.d - (three v s).1.n ≠ 0 := by intro e; rw [e] at h5; simp at h5
        rcases mul_eq_zero.mp h7 with e | e
        · rw [e] at h6; norm_num at h6
        · exact this e
      · have h8 : v * (three v s).1.d ≠ (three v s).1.n := by intro e; rw [e, sub_self] at h5; simp at h5
        have := bound v _ τ h4 h8 hx
        push_cast at hf
        omega
  | succ fuel ih =>
    intro s σ h hf
    obtain ⟨e, he⟩ := rounded_exists (eps v (three v s).1) error h0
    by_cases hle : e ≤ error
    · exact ⟨e, _, _, .ret s e he hle⟩
    · obtain ⟨⟨τ, hτ⟩, hs, h3 | ⟨τ, h4, h5, hz, h6, h7⟩⟩ := three_inv v s σ h _ rfl
      · exfalso
        rw [eps_zero v _ hv hτ.d0 h3] at he
        cases he with
        | keep h => exact hle h
        | round _ h _ => exact absurd h0 h
      · obtain ⟨hi, hgrow⟩ := one_inv v _ _ _ τ h4 h5 rfl h6 h7
        obtain ⟨ret, n, d, hr⟩ := ih _ τ hi (by push_cast at hf; omega)
        exact ⟨ret, n, d, .again s e ret n d he hle hz hr⟩

theorem runs_unique (v error : ℚ) (s : St) (ret ret' : ℚ) (n d n' d' : ℤ) (h : Runs v error s ret n d)
    (h' : Runs v error s ret' n' d') : ret = ret' ∧ n = n' ∧ d = d' := by
  induction h with
  | ret s e he hle =>
    cases h' with
    | ret _ _ he' => exact ⟨rounded_unique _ _ _ _ he he', rfl, rfl⟩
    | giveUp _ e' he' hle' => rw [rounded_unique _ _ _ _ he he'] at hle; exact absurd hle hle'
    | again _ e' _ _ _ he' hle' => rw [rounded_unique _ _ _ _ he he'] at hle; exact absurd hle hle'
  | giveUp s e he hle hz =>
    cases h' with
    | ret _ e' he' hle' => rw [rounded_unique _ _ _ _ he he'] at hle; exact absurd hle' hle
    | giveUp => exact ⟨rfl, rfl, rfl⟩
    | again _ e' _ _ _ _ _ hz' => exact absurd hz hz'
  | again s e _ _ _ he hle hz _ ih =>
    cases h' with
    | ret _ e' he' hle' => rw [rounded_unique _ _ _ _ he he'] at hle; exact absurd hle' hle
    | giveUp _ _ _ _ hz' => exact absurd hz' hz
    | again _ _ _ _ _ _ _ _ h2 => exact ih h2

/-! ### C29 -/

theorem range_pos {v error : ℚ} (h : ¬ outOfRange v error) : 0 < v ∧ 0 ≤ error := by
  unfold outOfRange at h
  push Not at h
  obtain ⟨h1, _, h2⟩ := h
  exact ⟨lt_of_lt_of_le (by positivity) h1, h2⟩

/-- Every call returns, and returns -1 exactly if the arguments are out of range. -/
theorem C29_terminates (v error : ℚ) : ∃ ret nd, Frac v error ret nd ∧ (ret = -1 ↔ outOfRange v error) := by
  by_cases h : outOfRange v error
  · exact ⟨-1, none, .range h, by simp [h]⟩
  · obtain ⟨hv, h0⟩ := range_pos h
    obtain ⟨ret, n, d, hr⟩ := runs_exists v error hv h0 v.den _ 1 (start_inv v hv) (by push_cast; omega)
    refine ⟨ret, some (n, d), .run ret n d h hr, ?_⟩
    have := (runs_spec v error hv h0 _ ret n d hr 1 (start_inv v hv)).1
    constructor
    · intro e; rw [e] at this; norm_num at this
    · intro e; exact absurd e h

/-- The result does not depend on anything but the arguments. -/
theorem C29_deterministic (v error : ℚ) (ret ret' : ℚ) (nd nd' : Option (ℤ × ℤ)) (h : Frac v error ret nd)
    (h' : Frac v error ret' nd') : ret = ret' ∧ nd = nd' := by
  cases h with
  | range ho => cases h' with
    | range _ => exact ⟨rfl, rfl⟩
    | run _ _ _ hn _ => exact absurd ho hn
  | run ret n d hn hr => cases h' with
    | range ho => exact absurd ho hn
    | run ret' n' d' _ hr' =>
      obtain ⟨a, b, c⟩ := runs_unique _ _ _ _ _ _ _ _ _ hr hr'
      subst a b c
      exact ⟨rfl, rfl⟩

/-- A successful call returns a number between 0 and `error`; the fraction is in lowest terms and its relative error is at
most one and a half times the number returned. -/
theorem C29_accuracy (v error : ℚ) (ret : ℚ) (n d : ℤ) (h : Frac v error ret (some (n, d))) :
    0 ≤ ret ∧ ret ≤ error ∧ 0 ≤ n ∧ 0 < d ∧ Int.gcd n d = 1 ∧ |v - n / d| / v ≤ 3 / 2 * error := by
  cases h with
  | run _ _ _ hn hr =>
    obtain ⟨hv, h0⟩ := range_pos hn
    obtain ⟨h1, h2, h3, h4, h5, h6⟩ := runs_spec v error hv h0 _ ret n d hr 1 (start_inv v hv)
    refine ⟨h1, h2, h3, h4, Int.isCoprime_iff_gcd_eq_one.mp h5, ?_⟩
    have hd : (0 : ℚ) < d := by exact_mod_cast h4
    have e : |v - n / d| / v = |1 - n / (v * d)| := by
      have e1 : |v - n / d| / v = |(v - n / d) / v| := by rw [abs_div, abs_of_pos hv]
      rw [e1]
      congr 1
      field_simp
    rw [e]
    linarith

/-- With `error = 0` the number is reproduced exactly: as its fraction in lowest terms. -/
theorem C29_exact (v : ℚ) (ret : ℚ) (n d : ℤ) (h : Frac v 0 ret (some (n, d))) : (n : ℚ) / d = v ∧ n = v.num ∧ d = v.den := by
  obtain ⟨_, _, _, h4, h5, h6⟩ := C29_accuracy v 0 ret n d h
  have hv : 0 < v := by
    cases h with
    | run _ _ _ hn _ => exact (range_pos hn).1
  have : |v - n / d| = 0 := by
    rw [div_le_iff₀ hv] at h6
    have := abs_nonneg (v - n / d)
    linarith
  have e : v = n / d := by linarith [abs_eq_zero.mp this]
  refine ⟨e.symm, ?_, ?_⟩
  · rw [e]; exact (Rat.num_div_eq_of_coprime h4 h5).symm
  · rw [e]; exact (Rat.den_div_eq_of_coprime h4 h5).symm

/-- The documented accuracy `| (v - n/d) / v | <= error` is not always met, since the comparison uses a rounded value. -/
theorem C29_documented_accuracy_missed :
    ∃ v error ret n d, Frac v error ret (some (n, d)) ∧ error < |v - n / d| / v := by
  refine ⟨50 / 43, 1 / 10, 1 / 10, 1, 1, .run _ _ _ ?_ ?_, ?_⟩
  · unfold outOfRange; norm_num
  · have hf : ⌊(50 / 43 : ℚ)⌋ = 1 := by norm_num
    rw [hf]
    have h3 : three (50 / 43) ⟨1, 1, 1 + 1, 1⟩ = (⟨1, 1, 2, 1⟩, 36 / 7) := by
      unfold three
      norm_num
    have he : eps (50 / 43) ⟨1, 1, 2, 1⟩ = 7 / 50 := by
      unfold eps
      norm_num
    have hro : Rounded (7 / 50 : ℚ) (1 / 10) (1 / 10) := by
      have := Rounded.round (e := 7 / 50) (error := 1 / 10) (1 * 10) (by norm_num) (.stop 1 (by norm_num))
      have hfl : ⌊(1 / 2 : ℚ) + 1 * 10 * (7 / 50)⌋ = 1 := by norm_num
      rw [hfl] at this
      norm_num at this ⊢
      exact this
    have := Runs.ret (v := 50 / 43) (error := 1 / 10) ⟨1, 1, 1 + 1, 1⟩ (1 / 10)
    rw [h3] at this
    simp only at this
    rw [he] at this
    exact this hro (le_refl _)
  · norm_num

/-- The arguments of the example are in range, as are those of the conversion of a fraction like 0.4. -/
example : ¬ outOfRange (2 / 5) (1 / 1000) := by unfold outOfRange; norm_num
example : outOfRange (1 / 10 ^ 12) (1 / 1000) := by unfold outOfRange; norm_num

end Magma.Num.FracApprox
