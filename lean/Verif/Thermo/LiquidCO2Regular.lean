import Verif.Thermo.LiquidCO2Props

/-!
C66: the Taylor expansion of liquid_CO2.c is the regular solution it is built from.

`initializeLiquid` (lines 421-510) solves a linear system for the coefficients of a quadratic polynomial in the
composition variables and the carbonate species: at the twenty pure species it takes given values, and on the join
of two species `4 (f(middle) - f(A)/2 - f(B)/2)` takes a given value.  `loadTaylorCoefficients` (lines 640-838) combines
these polynomials with the standard state energies and the interaction parameters.  Here: if the system has been
solved exactly, the result is `Σ xᵢ Gᵢ + Σ Wᵢₗ xᵢ xₗ` in the mole fractions of the species.

Line numbers are those of liquid_CO2.c.
-/

namespace Verif.Thermo.LiquidCO2

open Finset
open Verif.Thermo.Ordering
open Magma.Thermo.Mixing (R R_pos Mix)

noncomputable section

/-! ### Model: the linear system -/

/-- `rsEndmembers[i][0..NR-1]`, lines 421-436: composition of the pure species.  The last one, CaCO3, is
CaSiO3 + CO2 - SiO2, `coeff` is 1. -/
def vR (i : Fin 20) (j : Fin 18) : ℝ :=
  if i = 19 then (if j = 9 ∨ j = 13 then 1 else 0) else if i.val = j.val + 1 then 1 else 0

/-- `rsEndmembers[i][NR]`, line 435. -/
def vS (i : Fin 20) : ℝ := if i = 19 then 1 else 0

/-- Row `i` of `mTaylor` for a species, lines 472-476 and `loadTaylor` 322-335, applied to coefficients `k`: the value
of the polynomial at the species. -/
def atVertex (k : Co) (i : Fin 20) : ℝ := ev k (vR i) (vS i)

/-- The row of `mTaylor` for the pair `i`, `l`, lines 478-493. -/
def atJoin (k : Co) (i l : Fin 20) : ℝ :=
  4 * ev k (fun j => (vR i j + vR l j) / 2) ((vS i + vS l) / 2) - 2 * atVertex k i - 2 * atVertex k l

/-- The coefficients `taylorCoeff` solve the system for each unit right-hand side, lines 497-527. -/
structure Taylor.Exact (T : Taylor) : Prop where
  g_vertex : ∀ i k, atVertex (T.g i) k = if k = i then 1 else 0
  g_join : ∀ i k n, k < n → atJoin (T.g i) k n = 0
  w_vertex : ∀ i l k, i < l → atVertex (T.w i l) k = 0
  w_join : ∀ i l k n, i < l → k < n → atJoin (T.w i l) k n = if k = i ∧ n = l then 1 else 0

/-! ### Specification -/

/-- Gibbs energy of a regular solution with mole fractions `x`. -/
def regular (G : Fin 20 → ℝ) (W : Fin 20 → Fin 20 → ℝ) (x : Fin 20 → ℝ) : ℝ :=
  ∑ i, x i * G i + ∑ i, ∑ l, if i < l then W i l * x i * x l else 0

/-! ### Sums over pairs -/

lemma pairs_eq (f : Fin 20 → Fin 20 → ℝ) : pairs f = ∑ i, ∑ l, if i < l then f i l else 0 := by
  unfold pairs
  refine sum_congr rfl fun i _ => ?_
  rw [← sum_filter]
  congr 1
  ext l; simp

lemma pairs_add (f g : Fin 20 → Fin 20 → ℝ) : (pairs fun i l => f i l + g i l) = pairs f + pairs g := by
  simp only [pairs, sum_add_distrib]

lemma pairs_mul (f : Fin 20 → Fin 20 → ℝ) (c : ℝ) : (pairs fun i l => f i l * c) = pairs f * c := by
  simp only [pairs, sum_mul]

lemma pairs_sum {β : Type} (s : Finset β) (f : β → Fin 20 → Fin 20 → ℝ) :
    (pairs fun i l => ∑ b ∈ s, f b i l) = ∑ b ∈ s, pairs (f b) := by
  unfold pairs
  rw [sum_comm' (s := s) (t := fun _ => univ) (t' := univ) (s' := fun _ => s) (by simp)]
  refine sum_congr rfl fun i _ => ?_
  rw [sum_comm]

lemma pairs_congr {f g : Fin 20 → Fin 20 → ℝ} (h : ∀ i l, i < l → f i l = g i l) : pairs f = pairs g :=
  sum_congr rfl fun i _ => sum_congr rfl fun l hl => h i l (mem_Ioi.1 hl)

lemma pairs_half (f : Fin 20 → Fin 20 → ℝ) (hs : ∀ i l, f i l = f l i) (hd : ∀ i, f i i = 0) :
    pairs f = (∑ i, ∑ l, f i l) / 2 := by
  have h1 : ∀ i, ∑ j, f i j = ∑ j ∈ Ioi i, f i j + ∑ j ∈ Iio i, f i j := by
    intro i
    have h : ∑ j, f i j = f i i + (∑ j ∈ Ioi i, f i j + ∑ j ∈ Iio i, f i j) := by
      rw [← sum_union (by rw [disjoint_left]; intro j; simp; intro h; exact h.le)]
      rw [← sum_insert (by simp)]
      congr 1; ext j
      simp only [mem_univ, mem_insert, mem_union, mem_Ioi, mem_Iio, true_iff]
      rcases lt_trichotomy i j with h | h | h
      · exact .inr (.inl h)
      · exact .inl h.symm
      · exact .inr (.inr h)
    rw [h, hd, zero_add]
  have h3 : ∑ i, ∑ j ∈ Iio i, f i j = ∑ i, ∑ j ∈ Ioi i, f i j := by
    rw [sum_comm' (t' := univ) (s' := fun j => Ioi j) (by simp)]
    exact sum_congr rfl fun i _ => sum_congr rfl fun j _ => hs j i
  simp only [h1, sum_add_distrib, h3]
  unfold pairs; ring

/-! ### Quadratic polynomials on a simplex -/

/-- A function of the composition that is given by its values at the species and on the joins. -/
def Reg (f : (Fin 18 → ℝ) → ℝ → ℝ) : Prop := ∀ x : Fin 20 → ℝ, ∑ i, x i = 1 →
  f (fun j => ∑ i, x i * vR i j) (∑ i, x i * vS i) = ∑ i, x i * f (vR i) (vS i)
    + pairs fun i l => x i * x l * (4 * f (fun j => (vR i j + vR l j) / 2) ((vS i + vS l) / 2)
      - 2 * f (vR i) (vS i) - 2 * f (vR l) (vS l))

lemma Reg.const (c : ℝ) : Reg fun _ _ => c := by
  intro x hx
  have : (pairs fun i l => x i * x l * (4 * c - 2 * c - 2 * c)) = pairs fun _ _ => 0 :=
    pairs_congr fun i l _ => by ring
  rw [this, ← sum_mul, hx]; simp [pairs]

lemma Reg.add {f g : (Fin 18 → ℝ) → ℝ → ℝ} (hf : Reg f) (hg : Reg g) : Reg fun r s => f r s + g r s := by
  intro x hx
  simp only [hf x hx, hg x hx, mul_add, sum_add_distrib]
  rw [add_add_add_comm, ← pairs_add]
  congr 1
  exact pairs_congr fun i l _ => by ring

lemma Reg.cmul {f : (Fin 18 → ℝ) → ℝ → ℝ} (hf : Reg f) (c : ℝ) : Reg fun r s => c * f r s := by
  intro x hx
  simp only [hf x hx]
  rw [mul_comm c, add_mul, ← pairs_mul, sum_mul]
  congr 1
  · exact sum_congr rfl fun i _ => by ring
  · exact pairs_congr fun i l _ => by ring

lemma Reg.sum {β : Type} {s : Finset β} {f : β → (Fin 18 → ℝ) → ℝ → ℝ} (h : ∀ b ∈ s, Reg (f b)) :
    Reg fun r a => ∑ b ∈ s, f b r a := by
  classical
  induction s using Finset.induction_on with
  | empty => simpa using Reg.const 0
  | insert b s hb ih =>
    simp only [sum_insert hb]
    exact (h b (mem_insert_self _ _)).add (ih fun b hb => h b (mem_insert_of_mem hb))

/-- Linear functions. -/
lemma reg_lin (x : Fin 20 → ℝ) (u : Fin 20 → ℝ) : ∑ i, x i * u i = ∑ i, x i * u i
    + pairs fun i l => x i * x l * (4 * ((u i + u l) / 2) - 2 * u i - 2 * u l) := by
  have : (pairs fun i l => x i * x l * (4 * ((u i + u l) / 2) - 2 * u i - 2 * u l)) = pairs fun _ _ => 0 :=
    pairs_congr fun i l _ => by ring
  rw [this]; simp [pairs]

/-- Products of linear functions. -/
lemma reg_mul (x : Fin 20 → ℝ) (hx : ∑ i, x i = 1) (u v : Fin 20 → ℝ) :
    (∑ i, x i * u i) * (∑ i, x i * v i) = ∑ i, x i * (u i * v i)
    + pairs fun i l => x i * x l * (4 * ((u i + u l) / 2 * ((v i + v l) / 2)) - 2 * (u i * v i) - 2 * (u l * v l)) := by
  have e : (pairs fun i l => x i * x l * (4 * ((u i + u l) / 2 * ((v i + v l) / 2)) - 2 * (u i * v i) - 2 * (u l * v l)))
      = pairs fun i l => -(x i * x l * ((u i - u l) * (v i - v l))) := pairs_congr fun i l _ => by ring
  rw [e, pairs_half _ (fun i l => by ring) (fun i => by ring)]
  have s1 : ∀ f : Fin 20 → ℝ, ∑ i, ∑ l, x i * x l * f i = ∑ i, x i * f i := by
    intro f
    refine sum_congr rfl fun i _ => ?_
    calc ∑ l, x i * x l * f i = (∑ l, x l) * (x i * f i) := by
          rw [sum_mul]; exact sum_congr rfl fun l _ => by ring
      _ = x i * f i := by rw [hx, one_mul]
  have s2 : ∀ f : Fin 20 → ℝ, ∑ i, ∑ l, x i * x l * f l = ∑ i, x i * f i := by
    intro f
    rw [sum_comm, ← s1 f]
    exact sum_congr rfl fun i _ => sum_congr rfl fun l _ => by ring
  have s3 : ∀ f g : Fin 20 → ℝ, ∑ i, ∑ l, x i * x l * (f i * g l) = (∑ i, x i * f i) * ∑ i, x i * g i := by
    intro f g
    rw [sum_mul_sum]
    exact sum_congr rfl fun i _ => sum_congr rfl fun l _ => by ring
  have e2 : ∑ i, ∑ l, -(x i * x l * ((u i - u l) * (v i - v l)))
      = -(∑ i, ∑ l, x i * x l * (u i * v i)) - (∑ i, ∑ l, x i * x l * (u l * v l))
        + (∑ i, ∑ l, x i * x l * (u i * v l)) + ∑ i, ∑ l, x i * x l * (v i * u l) := by
    simp only [← sum_neg_distrib, ← sum_sub_distrib, ← sum_add_distrib]
    exact sum_congr rfl fun i _ => sum_congr rfl fun l _ => by ring
  rw [e2, s3, s3, s1 fun i => u i * v i, s2 fun i => u i * v i]
  ring

/-- Every polynomial of the expansion. -/
lemma reg_ev (k : Co) : Reg (ev k) := by
  unfold ev
  have hr : ∀ i, Reg fun r _ => r i := fun i x _ => reg_lin x fun j => vR j i
  have hs : Reg fun _ s => s := fun x _ => reg_lin x vS
  have hrr : ∀ i j, Reg fun r _ => r i * r j := fun i j x hx => reg_mul x hx (fun n => vR n i) fun n => vR n j
  have hrs : ∀ i, Reg fun r s => r i * s := fun i x hx => reg_mul x hx (fun n => vR n i) vS
  have hss : Reg fun _ s => s * s := fun x hx => reg_mul x hx vS vS
  refine ((Reg.const _).add (Reg.sum fun i _ => (((hr i).cmul _).add (Reg.sum fun j _ => ?_)).add ?_)).add
    ((hs.cmul _).add ?_)
  · simpa only [mul_assoc] using (hrr i j).cmul (k.rr i j)
  · have e : (fun (r : Fin 18 → ℝ) (s : ℝ) => k.rs i * r i * s) = fun r s => k.rs i * (r i * s) := by
      funext r s; ring
    exact e ▸ (hrs i).cmul (k.rs i)
  · simpa only [mul_assoc] using hss.cmul k.ss

/-! ### The species -/

lemma vR_zero (j : Fin 18) : vR 0 j = 0 := by
  unfold vR; rw [if_neg (by decide), if_neg]; simp
lemma vR_last (j : Fin 18) : vR 19 j = if j = 9 ∨ j = 13 then 1 else 0 := by
  unfold vR; rw [if_pos rfl]
lemma vR_succ (n j : Fin 18) : vR n.succ.castSucc j = if n = j then 1 else 0 := by
  unfold vR
  rw [if_neg (succ_ne_last n)]
  simp [Fin.ext_iff]
lemma vS_zero : vS 0 = 0 := by unfold vS; rw [if_neg (by decide)]
lemma vS_last : vS 19 = 1 := if_pos rfl
lemma vS_succ (n : Fin 18) : vS n.succ.castSucc = 0 := if_neg (succ_ne_last n)

lemma sum20 (f : Fin 20 → ℝ) : ∑ i, f i = f 0 + ∑ n : Fin 18, f n.succ.castSucc + f 19 := by
  rw [Fin.sum_univ_castSucc, Fin.sum_univ_succ]; rfl

/-- The mole fractions of the species give back the composition and the speciation. -/
lemma sp_vR (r : Fin 18 → ℝ) (s : ℝ) (j : Fin 18) : ∑ i, sp r s i * vR i j = r j := by
  rw [sum20]
  simp only [vR_zero, vR_last, vR_succ, sp_succ, sp_last]
  simp only [mul_ite, mul_one, mul_zero, sum_ite_eq', mem_univ, if_true]
  split_ifs <;> ring

lemma sp_vS (r : Fin 18 → ℝ) (s : ℝ) : ∑ i, sp r s i * vS i = s := by
  rw [sum20]
  simp only [vS_zero, vS_last, vS_succ, sp_last, mul_zero, sum_const_zero, mul_one, zero_add]

/-- The value of a polynomial from its values at the species and on the joins. -/
lemma ev_sp (k : Co) (r : Fin 18 → ℝ) (s : ℝ) : ev k r s
    = ∑ i, sp r s i * atVertex k i + pairs fun i l => sp r s i * sp r s l * atJoin k i l := by
  have h := reg_ev k (sp r s) (sp_sum r s)
  simp only [sp_vR, sp_vS] at h
  exact h

lemma ev_g {T : Taylor} (hT : T.Exact) (i : Fin 20) (r : Fin 18 → ℝ) (s : ℝ) : ev (T.g i) r s = sp r s i := by
  rw [ev_sp]
  have : (pairs fun k n => sp r s k * sp r s n * atJoin (T.g i) k n) = pairs fun _ _ => 0 :=
    pairs_congr fun k n h => by rw [hT.g_join i k n h, mul_zero]
  rw [this]
  simp only [hT.g_vertex]
  simp [pairs]

lemma ev_w {T : Taylor} (hT : T.Exact) {i l : Fin 20} (hil : i < l) (r : Fin 18 → ℝ) (s : ℝ) :
    ev (T.w i l) r s = sp r s i * sp r s l := by
  rw [ev_sp]
  have e1 : ∑ k, sp r s k * atVertex (T.w i l) k = 0 := sum_eq_zero fun k _ => by rw [hT.w_vertex i l k hil, mul_zero]
  have e2 : (pairs fun k n => sp r s k * sp r s n * atJoin (T.w i l) k n)
      = pairs fun k n => if k = i ∧ n = l then sp r s k * sp r s n else 0 :=
    pairs_congr fun k n h => by rw [hT.w_join i l k n hil h]; split_ifs <;> simp
  rw [e1, e2, zero_add, pairs_eq, sum_eq_single i, sum_eq_single l]
  · simp [hil]
  · intro n _ hn; simp [hn]
  · simp
  · intro k _ hk; simp [hk]
  · simp

/-- The quadratic coefficients of the expansion at a species vanish, so that `loadTaylorCoefficients` may leave
them out. -/
lemma ev_lin {k : Co} {i : Fin 20} (h : ∀ r s, ev k r s = sp r s i) (r : Fin 18 → ℝ) (s : ℝ) :
    evL k r s = sp r s i := by
  have h1 := h r s
  have h2 := h (fun j => -r j) (-s)
  have h3 := h (fun _ => 0) 0
  have e : sp r s i + sp (fun j => -r j) (-s) i = 2 * sp (fun _ => 0) 0 i := by
    rcases fin20 i with e | e | ⟨j, e⟩
    · subst e; rw [sp_zero, sp_zero, sp_zero]; simp; ring
    · subst e; simp [sp_last]
    · subst e; rw [sp_succ, sp_succ, sp_succ]; split_ifs <;> ring
  have q : ev k r s + ev k (fun j => -r j) (-s) = 2 * (ev k r s - evL k r s) + 2 * k.c := by
    have e1 : ev k (fun j => -r j) (-s) = k.c + (∑ i, (∑ j ∈ Ici i, k.rr i j * r i * r j + k.rs i * r i * s)
        - ∑ i, k.r i * r i) + (-(k.s * s) + k.ss * s * s) := by
      unfold ev
      rw [← sum_sub_distrib]
      congr 1
      · congr 1
        refine sum_congr rfl fun i _ => ?_
        have : ∑ j ∈ Ici i, k.rr i j * -r i * -r j = ∑ j ∈ Ici i, k.rr i j * r i * r j :=
          sum_congr rfl fun j _ => by ring
        rw [this]; ring
      · ring
    have e2 : ev k r s = k.c + (∑ i, (∑ j ∈ Ici i, k.rr i j * r i * r j + k.rs i * r i * s)
        + ∑ i, k.r i * r i) + (k.s * s + k.ss * s * s) := by
      unfold ev
      rw [← sum_add_distrib]
      congr 2
      exact sum_congr rfl fun i _ => by ring
    rw [e1, e2]
    unfold evL
    ring
  have h4 : k.c = sp (fun _ => 0) 0 i := by rw [← h3]; simp [ev]
  linarith

/-- The expansion combines the rows linearly. -/
lemma ev_load (T : Taylor) (G : Fin 20 → ℝ) (W : Fin 20 → Fin 20 → ℝ) (r : Fin 18 → ℝ) (s : ℝ) :
    ev (load T G W) r s = ∑ i, evL (T.g i) r s * G i + pairs fun i l => ev (T.w i l) r s * W i l := by
  have e1 : ∀ i, ∑ j ∈ Ici i, (load T G W).rr i j * r i * r j
      = pairs fun a b => ∑ j ∈ Ici i, (T.w a b).rr i j * W a b * (r i * r j) := by
    intro i
    rw [pairs_sum]
    refine sum_congr rfl fun j hj => ?_
    rw [pairs_mul]
    simp only [load]
    rw [if_pos (mem_Ici.1 hj)]
    ring
  have e2 : ∀ i, (load T G W).rs i * r i * s = pairs fun a b => (T.w a b).rs i * W a b * (r i * s) := by
    intro i; rw [pairs_mul]; simp only [load]; ring
  have e3 : ∀ i, (load T G W).r i * r i = ∑ a, (T.g a).r i * G a * r i
      + pairs fun a b => (T.w a b).r i * W a b * r i := by
    intro i; rw [pairs_mul, ← sum_mul]; simp only [load]; ring
  have e4 : (load T G W).s * s = ∑ a, (T.g a).s * G a * s + pairs fun a b => (T.w a b).s * W a b * s := by
    rw [pairs_mul, ← sum_mul]; simp only [load]; ring
  have e5 : (load T G W).ss * s * s = pairs fun a b => (T.w a b).ss * W a b * (s * s) := by
    rw [pairs_mul]; simp only [load]; ring
  unfold ev
  rw [e4, e5]
  simp only [e1, e2, e3, sum_add_distrib, ← pairs_sum]
  rw [sum_comm (s := univ) (t := univ) (f := fun i a => (T.g a).r i * G a * r i)]
  have f1 : ∑ i, evL (T.g i) r s * G i = ∑ i, (T.g i).c * G i + ∑ a, ∑ i, (T.g a).r i * G a * r i
      + ∑ a, (T.g a).s * G a * s := by
    simp only [← sum_add_distrib]
    refine sum_congr rfl fun a _ => ?_
    unfold evL
    have : ∑ i, (T.g a).r i * G a * r i = (∑ i, (T.g a).r i * r i) * G a := by
      rw [sum_mul]; exact sum_congr rfl fun i _ => by ring
    rw [this]; ring
  have f2 : (pairs fun i l => ((T.w i l).c + (∑ x, (T.w i l).r x * r x + ∑ x, ∑ x_1 ∈ Ici x, (T.w i l).rr x x_1 * r x * r x_1
        + ∑ x, (T.w i l).rs x * r x * s) + ((T.w i l).s * s + (T.w i l).ss * s * s)) * W i l)
      = (pairs fun i l => (T.w i l).c * W i l) + (pairs fun a b => ∑ x, (T.w a b).r x * W a b * r x)
        + (pairs fun a b => ∑ x, ∑ j ∈ Ici x, (T.w a b).rr x j * W a b * (r x * r j))
        + (pairs fun a b => ∑ x, (T.w a b).rs x * W a b * (r x * s))
        + (pairs fun a b => (T.w a b).s * W a b * s) + pairs fun a b => (T.w a b).ss * W a b * (s * s) := by
    simp only [← pairs_add]
    refine pairs_congr fun a b _ => ?_
    have g1 : ∑ x, (T.w a b).r x * W a b * r x = (∑ x, (T.w a b).r x * r x) * W a b := by
      rw [sum_mul]; exact sum_congr rfl fun i _ => by ring
    have g2 : ∑ x, ∑ j ∈ Ici x, (T.w a b).rr x j * W a b * (r x * r j)
        = (∑ x, ∑ j ∈ Ici x, (T.w a b).rr x j * r x * r j) * W a b := by
      rw [sum_mul]; refine sum_congr rfl fun i _ => ?_
      rw [sum_mul]; exact sum_congr rfl fun j _ => by ring
    have g3 : ∑ x, (T.w a b).rs x * W a b * (r x * s) = (∑ x, (T.w a b).rs x * r x * s) * W a b := by
      rw [sum_mul]; exact sum_congr rfl fun i _ => by ring
    rw [g1, g2, g3]; ring
  rw [f1, f2]
  simp only [load]
  ring

/-- **C66.** If the linear system for the Taylor coefficients has been solved exactly, the expansion the liquid is
computed from is the regular solution with the given energies of the species and interaction parameters, at every
composition and every state of the speciation reaction. -/
theorem C66_regular_solution {T : Taylor} (hT : T.Exact) (G : Fin 20 → ℝ) (W : Fin 20 → Fin 20 → ℝ)
    (r : Fin 18 → ℝ) (s : ℝ) : ev (load T G W) r s = regular G W (sp r s) := by
  rw [ev_load, regular, pairs_eq]
  congr 1
  · exact sum_congr rfl fun i _ => by rw [ev_lin (ev_g hT i)]
  · refine sum_congr rfl fun i _ => sum_congr rfl fun l _ => ?_
    split_ifs with h
    · rw [ev_w hT h]; ring
    · rfl

/-- **C66.** The Gibbs energy of mixing the liquid reports: that of a regular solution of the twenty species with
ideal mixing of the species and of the hydroxyl, less the end members.  Terms of absent species vanish. -/
theorem C66_gibbs_of_mixing {P : Par} (hT : P.T.Exact) {X : (Ext 18 → ℝ) → Fin 1 → ℝ} {t p : ℝ} {r : Fin 18 → ℝ}
    (hx : ∀ i, 0 ≤ sp r (X (env r t p) 0) i) :
    (liqMix P X).g t p r = regular (P.G t p) (P.W t p) (sp r (X (env r t p) 0))
      + R * t * (∑ i, sp r (X (env r t p) 0) i * Real.log (sp r (X (env r t p) 0) i)
        + sp r (X (env r t p) 0) w * Real.log (sp r (X (env r t p) 0) w)
        + (1 - sp r (X (env r t p) 0) w) * Real.log (1 - sp r (X (env r t p) 0) w))
      - ((1 - ∑ j, r j) * P.G t p 0 + ∑ j, r j * P.G t p j.succ.castSucc) := by
  have h1 : (liqMix P X).g t p r = (code P (pt X (env r t p))).g
      - ((1 - ∑ j, r j) * P.G t p 0 + ∑ j, r j * P.G t p j.succ.castSucc) := by
    simp only [liqMix, ofVal, MixVal.add, rawVal, mechVal, Par.endStd, Fin.castSucc_zero, mul_sub, sum_sub_distrib,
      ← sum_mul]
    ring
  rw [h1]
  congr 1
  have h2 : (code P (pt X (env r t p))).g = ev (P.kG t p) r (X (env r t p) 0) + R * t * c0
    (fun i => 0 < sp r (X (env r t p) 0) i) (0 < sp r (X (env r t p) 0) w ∧ sp r (X (env r t p) 0) w < 1)
      (sp r (X (env r t p) 0)) := rfl
  rw [h2]
  unfold Par.kG
  rw [C66_regular_solution hT]
  congr 2
  set x := sp r (X (env r t p) 0) with hx0
  have hw : x w ≤ 1 := by
    have := sp_sum r (X (env r t p) 0)
    rw [← this]
    exact single_le_sum (f := x) (fun i _ => hx i) (mem_univ w)
  unfold c0
  rw [add_assoc]
  congr 1
  · refine sum_congr rfl fun i _ => ?_
    split_ifs with h
    · rfl
    · rw [le_antisymm (not_lt.1 h) (hx i)]; simp
  · split_ifs with h
    · rfl
    · rcases (hx w).eq_or_lt with e | e
      · rw [← e]; simp
      · have : x w = 1 := le_antisymm hw (not_lt.1 fun a => h ⟨e, a⟩)
        rw [this]; simp

/-! ### The system has a solution -/

/-- Coefficients of the product of `a + b·r + d s` and `a' + b'·r + d' s`. -/
def prodCo (a : ℝ) (b : Fin 18 → ℝ) (d a' : ℝ) (b' : Fin 18 → ℝ) (d' : ℝ) : Co where
  c := a * a'
  r j := a * b' j + a' * b j
  s := a * d' + a' * d
  rr j k := if j = k then b j * b' j else b j * b' k + b k * b' j
  rs j := b j * d' + b' j * d
  ss := d * d'

lemma ev_prodCo (a : ℝ) (b : Fin 18 → ℝ) (d a' : ℝ) (b' : Fin 18 → ℝ) (d' : ℝ) (r : Fin 18 → ℝ) (s : ℝ) :
    ev (prodCo a b d a' b' d') r s = (a + ∑ j, b j * r j + d * s) * (a' + ∑ j, b' j * r j + d' * s) := by
  have hsym : (prodCo a b d a' b' d').Sym := by
    intro i j
    simp only [prodCo]
    by_cases h : i = j
    · subst h; rfl
    · rw [if_neg h, if_neg (Ne.symm h)]; ring
  rw [ev_eq hsym]
  have e1 : ∑ i, ∑ j, (prodCo a b d a' b' d').rr i j * r i * r j + ∑ i, (prodCo a b d a' b' d').rr i i * r i * r i
      = 2 * ((∑ j, b j * r j) * ∑ j, b' j * r j) := by
    have f1 : ∀ i j, (prodCo a b d a' b' d').rr i j * r i * r j
        = b i * r i * (b' j * r j) + b j * r j * (b' i * r i) - if i = j then b i * r i * (b' i * r i) else 0 := by
      intro i j
      simp only [prodCo]
      by_cases h : i = j
      · subst h; simp; ring
      · simp [h]; ring
    have f2 : ∀ i, (prodCo a b d a' b' d').rr i i * r i * r i = b i * r i * (b' i * r i) := by
      intro i; simp [prodCo]; ring
    simp only [f1, f2, sum_sub_distrib, sum_add_distrib, sum_ite_eq, mem_univ, if_true]
    have f3 : ∑ i, ∑ j, b j * r j * (b' i * r i) = ∑ i, ∑ j, b i * r i * (b' j * r j) := sum_comm
    rw [f3, sum_mul_sum]; ring
  rw [e1]
  have e2 : ∑ i, (prodCo a b d a' b' d').r i * r i = a * (∑ j, b' j * r j) + a' * ∑ j, b j * r j := by
    rw [mul_sum, mul_sum, ← sum_add_distrib]
    exact sum_congr rfl fun i _ => by simp only [prodCo]; ring
  have e3 : ∑ i, (prodCo a b d a' b' d').rs i * r i = d' * (∑ j, b j * r j) + d * ∑ j, b' j * r j := by
    rw [mul_sum, mul_sum, ← sum_add_distrib]
    exact sum_congr rfl fun i _ => by simp only [prodCo]; ring
  rw [e2, e3]
  simp only [prodCo]
  ring

/-- The solution of the system. -/
def taylor : Taylor where
  g i := prodCo 1 0 0 (if i = 0 then 1 else 0) (fun j => dxdr j i) (dxds i)
  w i l := prodCo (if i = 0 then 1 else 0) (fun j => dxdr j i) (dxds i) (if l = 0 then 1 else 0) (fun j => dxdr j l) (dxds l)

lemma sp_affine (r : Fin 18 → ℝ) (s : ℝ) (i : Fin 20) :
    (if i = 0 then 1 else 0) + ∑ j, dxdr j i * r j + dxds i * s = sp r s i := by
  rcases fin20 i with e | e | ⟨j, e⟩
  · subst e; simp [sp_zero, dxdr, dxds]
    ring
  · subst e; rw [sp_last]
    have : ∀ j : Fin 18, dxdr j 19 = 0 := by
      intro j; unfold dxdr
      rw [if_neg (by decide), if_neg]
      have e : ((19 : Fin 20) : ℕ) = 19 := rfl
      rw [e]; have := j.isLt; omega
    simp [this, dxds]
  · subst e; rw [sp_succ]
    have h1 : ∀ n : Fin 18, dxdr n j.succ.castSucc = if j = n then 1 else 0 := by
      intro n; unfold dxdr
      rw [if_neg (succ_ne_zero' j)]
      simp [Fin.ext_iff]
    have h3 : (j.succ.castSucc : Fin 20) = 10 ∨ (j.succ.castSucc : Fin 20) = 14 ↔ j = 9 ∨ j = 13 := by
      clear h1; revert j; decide
    have h4 : dxds j.succ.castSucc = if j = 9 ∨ j = 13 then -1 else 0 := by
      unfold dxds
      rw [if_neg (by rintro (h | h)
                     · exact succ_ne_zero' j h
                     · exact succ_ne_last j h)]
      simp only [h3]
    rw [if_neg (succ_ne_zero' j), h4]
    simp only [h1, ite_mul, one_mul, zero_mul, sum_ite_eq, mem_univ, if_true]
    split_ifs <;> ring

lemma taylor_w (i l : Fin 20) (r : Fin 18 → ℝ) (s : ℝ) : ev (taylor.w i l) r s = sp r s i * sp r s l := by
  rw [← sp_affine, ← sp_affine]
  exact ev_prodCo _ _ _ _ _ _ r s

lemma taylor_g (i : Fin 20) (r : Fin 18 → ℝ) (s : ℝ) : ev (taylor.g i) r s = sp r s i := by
  rw [← sp_affine]
  refine (ev_prodCo _ _ _ _ _ _ r s).trans ?_
  simp

lemma sp_vertex (k i : Fin 20) : sp (vR k) (vS k) i = if k = i then 1 else 0 := by
  rcases fin20 k with e | e | ⟨n, e⟩ <;> rcases fin20 i with f | f | ⟨j, f⟩ <;> subst e <;> subst f
  · simp [sp_zero, vR_zero, vS_zero]
  · simp [sp_last, vS_zero]
  · rw [sp_succ, if_neg (succ_ne_zero' j).symm]; simp [vR_zero, vS_zero]
  · rw [sp_zero, if_neg (by decide), vS_last]
    simp only [vR_last]
    have : (univ.filter fun j : Fin 18 => j = 9 ∨ j = 13).card = 2 := by decide
    rw [Finset.sum_ite, sum_const_zero, add_zero, sum_const, this]; norm_num
  · simp [sp_last, vS_last]
  · rw [sp_succ, if_neg (succ_ne_last j).symm, vS_last, vR_last]; simp
  · rw [sp_zero, if_neg (succ_ne_zero' n), vS_succ]
    simp only [vR_succ, sum_ite_eq, mem_univ, if_true]; norm_num
  · rw [sp_last, if_neg (succ_ne_last n), vS_succ]
  · rw [sp_succ, vR_succ, vS_succ]
    simp

lemma sp_mid (k n i : Fin 20) : sp (fun j => (vR k j + vR n j) / 2) ((vS k + vS n) / 2) i
    = ((if k = i then 1 else 0) + (if n = i then 1 else 0)) / 2 := by
  rw [← sp_vertex, ← sp_vertex, ← sp_affine, ← sp_affine, ← sp_affine]
  have : ∑ j, dxdr j i * ((vR k j + vR n j) / 2) = (∑ j, dxdr j i * vR k j + ∑ j, dxdr j i * vR n j) / 2 := by
    rw [← sum_add_distrib, sum_div]
    exact sum_congr rfl fun j _ => by ring
  rw [this]; ring

/-- The system can be solved exactly: the hypothesis of `C66_regular_solution` holds for these coefficients. -/
theorem taylor_exact : taylor.Exact where
  g_vertex i k := by unfold atVertex; rw [taylor_g, sp_vertex]
  g_join i k n _ := by
    unfold atJoin atVertex
    rw [taylor_g, taylor_g, taylor_g, sp_vertex, sp_vertex, sp_mid]; ring
  w_vertex i l k h := by
    unfold atVertex
    rw [taylor_w, sp_vertex, sp_vertex]
    by_cases e : k = i
    · subst e; simp [h.ne]
    · simp [e]
  w_join i l k n h h' := by
    unfold atJoin atVertex
    rw [taylor_w, taylor_w, taylor_w]
    simp only [sp_vertex, sp_mid]
    by_cases e1 : k = i <;> by_cases e2 : n = l
    · subst e1; subst e2
      have a : ¬n = k := h.ne'
      have b : ¬k = n := h.ne
      simp [a, b]; norm_num
    · subst e1
      have a : ¬n = k := h'.ne'
      have b : ¬k = l := h.ne
      simp [a, b, e2]
    · subst e2
      have a : ¬k = n := h'.ne
      have b : ¬n = i := h.ne'
      simp [a, b, e1]
    · by_cases e3 : k = l <;> by_cases e4 : n = i
      · subst e3; subst e4; exact absurd h (not_lt.2 h'.le)
      · simp [e3, e4, e1, e2, h.ne']
      · simp [e3, e4, e1, e2, h.ne]
      · simp [e3, e4, e1, e2]

end

end Verif.Thermo.LiquidCO2
