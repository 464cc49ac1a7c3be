import Verif.Thermo.OrderTables
import Verif.Thermo.OrderExist

/-!
The argument by which a phase file's `order()` has exactly one solution, once for all phases: the energy is a smooth part
plus ideal site mixing, the site fractions are affine in the ordering state, and the Hessian is positive definite.
-/

namespace Verif.Thermo.Ordering

open Finset Filter Topology

noncomputable section

section
variable {nr ns n : ℕ} {M : (Var nr ns → ℝ) → Tables nr ns} {D : (Var nr ns → ℝ) → Prop}

/-- `s` is an equilibrium ordering state at the conditions `θ`: inside the bounds of the site fractions, and the equations
that `order()` solves hold. -/
def IsEq (M : (Var nr ns → ℝ) → Tables nr ns) (D : (Var nr ns → ℝ) → Prop) (θ : Ext nr → ℝ) (s : Fin ns → ℝ) : Prop :=
  D (join (θ, s)) ∧ ∀ k, (M (join (θ, s))).dgds k = 0

/-- An ordering state of least energy, and it solves the equations. -/
theorem pack_exists (ok : (jets M).Ok D) (dom_open : IsOpen {y | D y}) {θ : Ext nr → ℝ} {a : Fin n → ℝ}
    {b : Fin n → Fin ns → ℝ} {c : Fin n → ℝ} {Q : (Fin ns → ℝ) → ℝ} (hD : ∀ s, D (join (θ, s)) ↔ ∀ i, 0 < frac (a i) (b i) s)
    (hg : ∀ s, D (join (θ, s)) →
      (M (join (θ, s))).g = Q s + ∑ i, c i * (frac (a i) (b i) s * Real.log (frac (a i) (b i) s)))
    (hc : ∀ i, 0 < c i) (hQ : Differentiable ℝ Q) {s0 : Fin ns → ℝ} (h0 : ∀ i, 0 < frac (a i) (b i) s0)
    (hb : Bornology.IsBounded {s : Fin ns → ℝ | ∀ i, 0 ≤ frac (a i) (b i) s}) :
    ∃ s, IsEq M D θ s ∧ ∀ s', D (join (θ, s')) → (M (join (θ, s))).g ≤ (M (join (θ, s'))).g := by
  obtain ⟨s, hs, hmin⟩ := exists_interior_min a b c hc hQ h0 hb
  have hDs : D (join (θ, s)) := (hD s).mpr hs
  have hle : ∀ s', D (join (θ, s')) → (M (join (θ, s))).g ≤ (M (join (θ, s'))).g := by
    intro s' hs'
    rw [hg s hDs, hg s' hs']
    exact hmin s' fun i => ((hD s').mp hs' i).le
  refine ⟨s, ⟨hDs, fun k => ?_⟩, hle⟩
  refine stationary_of_min ok hDs ?_ k
  have hopen : ∀ᶠ s' in 𝓝 s, D (join (θ, s')) := by
    have hc : Continuous fun s' : Fin ns → ℝ => join (θ, s') :=
      join_continuous.comp (Continuous.prodMk continuous_const continuous_id)
    exact hc.continuousAt.eventually (dom_open.mem_nhds hDs)
  filter_upwards [hopen] with s' h
  exact hle s' h

/-- States with positive affine site fractions form a convex set. -/
theorem pack_convex {θ : Ext nr → ℝ} {a : Fin n → ℝ} {b : Fin n → Fin ns → ℝ}
    (hD : ∀ s, D (join (θ, s)) ↔ ∀ i, 0 < frac (a i) (b i) s) : Convex ℝ {s | D (join (θ, s))} := by
  intro s hs s' hs' x y hx hy hxy
  refine (hD _).mpr fun i => ?_
  have h := (hD _).mp hs i
  have h' := (hD _).mp hs' i
  have e : x • s + y • s' = s + y • (s' - s) := by
    funext k; simp only [Pi.add_apply, Pi.smul_apply, Pi.sub_apply, smul_eq_mul]
    have : x = 1 - y := by linarith
    rw [this]; ring
  rw [e, frac_seg, show 1 - y = x by linarith]
  rcases hx.lt_or_eq with hx' | hx'
  · have := mul_pos hx' h
    have := mul_nonneg hy h'.le
    linarith
  · rw [← hx', zero_mul, zero_add]
    have : y = 1 := by linarith
    rw [this, one_mul]; exact h'

/-- With a positive definite Hessian there is no other equilibrium state. -/
theorem pack_unique (ok : (jets M).Ok D) {θ : Ext nr → ℝ} (hc : Convex ℝ {s | D (join (θ, s))})
    (hp : ∀ s, D (join (θ, s)) → PosHess (jets M) (join (θ, s))) {s s' : Fin ns → ℝ} (h : IsEq M D θ s) (h' : IsEq M D θ s') :
    s = s' :=
  stationary_unique ok hc hp h.1 h'.1 h.2 h'.2

/-- Hence the equilibrium state is a smooth function of the conditions. -/
theorem pack_solved (ok : (jets M).Ok D) (dom_open : IsOpen {y | D y}) {U : Set (Ext nr → ℝ)} (hU : IsOpen U)
    {X : (Ext nr → ℝ) → Fin ns → ℝ} (hX : ∀ θ ∈ U, IsEq M D θ (X θ)) (hc : ∀ θ ∈ U, Convex ℝ {s | D (join (θ, s))})
    (hp : ∀ θ ∈ U, ∀ s, D (join (θ, s)) → PosHess (jets M) (join (θ, s))) : Solved (jets M) D X U :=
  solved_of_posHess ok dom_open hU (fun θ hθ => hX θ hθ) hc hp

/-- There is a function giving an equilibrium state wherever there is such a state. -/
theorem pack_choose {U : Set (Ext nr → ℝ)} (h : ∀ θ ∈ U, ∃ s, IsEq M D θ s) :
    ∃ X : (Ext nr → ℝ) → Fin ns → ℝ, ∀ θ ∈ U, IsEq M D θ (X θ) := by
  classical
  have h' : ∀ θ : Ext nr → ℝ, ∃ s : Fin ns → ℝ, θ ∈ U → IsEq M D θ s := by
    intro θ
    by_cases hθ : θ ∈ U
    · obtain ⟨s, hs⟩ := h θ hθ
      exact ⟨s, fun _ => hs⟩
    · exact ⟨0, fun hh => absurd hh hθ⟩
  choose X hX using h'
  exact ⟨X, hX⟩

/-- The sum-of-squares inequality behind the convexity of ideal mixing: cations on sites whose fractions add up to at most
`T`. -/
lemma titu {m : ℕ} (a x : Fin m → ℝ) (hx : ∀ i, 0 < x i) {T : ℝ} (hT : ∑ i, x i ≤ T) :
    (∑ i, |a i|) ^ 2 / T ≤ ∑ i, a i ^ 2 / x i := by
  rcases Nat.eq_zero_or_pos m with rfl | hm
  · simp
  have hne : (univ : Finset (Fin m)).Nonempty := ⟨⟨0, hm⟩, mem_univ _⟩
  have hs : 0 < ∑ i, x i := sum_pos (fun i _ => hx i) hne
  have h1 : (∑ i, |a i|) ^ 2 / ∑ i, x i ≤ ∑ i, |a i| ^ 2 / x i :=
    Finset.sq_sum_div_le_sum_sq_div univ (fun i => |a i|) (fun i _ => hx i)
  have h2 : (∑ i, |a i|) ^ 2 / T ≤ (∑ i, |a i|) ^ 2 / ∑ i, x i := div_le_div_of_nonneg_left (sq_nonneg _) hs hT
  refine (h2.trans h1).trans (le_of_eq ?_)
  exact Finset.sum_congr rfl fun i _ => by rw [sq_abs]

end

end

end Verif.Thermo.Ordering
