import Verif.Thermo.LiquidCO2
import Verif.Thermo.OrderFace
import Verif.Thermo.ConvTables

/-!
C66: the silicate liquid with a dissolved carbonate species (liquid_CO2.c, liquid_CO2_H2O.c) — what `gmixLiq`,
`hmixLiq`, `smixLiq`, `cpmixLiq`, `vmixLiq` and `actLiq` return.

Line numbers are those of liquid_CO2.c.
-/

namespace Verif.Thermo.LiquidCO2

open Finset Filter Topology
open Verif.Thermo.Ordering
open Verif.Thermo.StdState (Std)
open Magma.Thermo.Mixing (R R_pos Mix)
open Magma.Thermo.Extensive

noncomputable section

variable (P : Par)

/-! ### The mixing functions -/

section
variable {ι κ : Type} [Fintype ι] [Fintype κ] [DecidableEq ι] [DecidableEq κ]

/-- Second derivatives from the arrays and the derivatives `ds` of the speciation, lines 3524-3532 and the like. -/
def q2 (J : Jets ι κ) (x : ι ⊕ κ → ℝ) (ds : ι → κ → ℝ) (i j : ι) : ℝ :=
  J.g2 x (.inl i) (.inl j)
  + ∑ k, (J.g2 x (.inr k) (.inl i) * ds j k + J.g2 x (.inr k) (.inl j) * ds i k
    + ∑ l, J.g2 x (.inr k) (.inr l) * ds i k * ds j l)

/-- Third derivatives from the arrays and the derivatives of the speciation, lines 4048-4068, 4150-4161 and the
like. -/
def q3 (J : Jets ι κ) (x : ι ⊕ κ → ℝ) (ds : ι → κ → ℝ) (d2s : ι → ι → κ → ℝ) (i j m : ι) : ℝ :=
  J.g3 x (.inl i) (.inl j) (.inl m)
  + ∑ k, (J.g3 x (.inr k) (.inl i) (.inl j) * ds m k
      + J.g3 x (.inr k) (.inl i) (.inl m) * ds j k
      + J.g3 x (.inr k) (.inl j) (.inl m) * ds i k
      + J.g2 x (.inr k) (.inl i) * d2s j m k
      + J.g2 x (.inr k) (.inl j) * d2s i m k
      + J.g2 x (.inr k) (.inl m) * d2s i j k
    + ∑ l, (J.g2 x (.inr k) (.inr l) * ds i k * d2s j m l
        + J.g2 x (.inr k) (.inr l) * ds j k * d2s i m l
        + J.g2 x (.inr k) (.inr l) * ds m k * d2s i j l
        + J.g3 x (.inr k) (.inr l) (.inl i) * ds j k * ds m l
        + J.g3 x (.inr k) (.inr l) (.inl j) * ds i k * ds m l
        + J.g3 x (.inr k) (.inr l) (.inl m) * ds i k * ds j l
      + ∑ n, J.g3 x (.inr k) (.inr l) (.inr n) * ds i k * ds j l * ds m n))

/-- Third composition derivatives as `gmixLiq` computes them (lines 3556-3573; computed and not returned). -/
def q3s (J : Jets ι κ) (x : ι ⊕ κ → ℝ) (ds : ι → κ → ℝ) (i j m : ι) : ℝ :=
  J.g3 x (.inl i) (.inl j) (.inl m)
  + ∑ k, (J.g3 x (.inr k) (.inl i) (.inl j) * ds m k
      + J.g3 x (.inr k) (.inl j) (.inl m) * ds i k
      + J.g3 x (.inr k) (.inl m) (.inl i) * ds j k
    + ∑ l, (J.g3 x (.inr k) (.inr l) (.inl i) * ds j k * ds m l
        + J.g3 x (.inr k) (.inr l) (.inl j) * ds m k * ds i l
        + J.g3 x (.inr k) (.inr l) (.inl m) * ds i k * ds j l
      + ∑ n, J.g3 x (.inr k) (.inr l) (.inr n) * ds i k * ds j l * ds m n))

end

/-- The arrays as functions (constant: they are evaluated at one point). -/
def arr (T : Tables 18 1) : Jets (Ext 18) (Fin 1) := jets fun _ => T

/-- `dr`, `dt`, `dp` of `order()`, lines 2223-2265: zero when there is no carbonate. -/
def ds (T : Tables 18 1) (s : ℝ) (i : Ext 18) : Fin 1 → ℝ := if 0 < s then dS (arr T) 0 i else fun _ => 0

/-- `dr2`, `drt`, …, `dp2` of `order()`, lines 2267-2560. -/
def d2s (T : Tables 18 1) (s : ℝ) (i j : Ext 18) : Fin 1 → ℝ := if 0 < s then d2S (arr T) 0 i j else fun _ => 0

/-- The properties of the solution, before the end members are subtracted: `gmixLiq` 3485-3577, `hmixLiq` 3582,
`smixLiq` 3671-3835, `cpmixLiq` 3839-3957, `vmixLiq` 3960-4345. -/
def rawVal (T : Tables 18 1) (t s : ℝ) : MixVal 18 where
  g := T.g
  gr := T.dgdr
  grr i j := q2 (arr T) 0 (ds T s) (.inl i) (.inl j)
  grrr i j k := q3s (arr T) 0 (ds T s) (.inl i) (.inl j) (.inl k)
  h := T.g + t * T.s
  s := T.s
  sr i := q2 (arr T) 0 (ds T s) (.inl i) iT * -1
  srr i j := q3 (arr T) 0 (ds T s) (d2s T s) (.inl i) (.inl j) iT * -1
  cp := q2 (arr T) 0 (ds T s) iT iT * -t
  cpt := -t * q3 (arr T) 0 (ds T s) (d2s T s) iT iT iT - q2 (arr T) 0 (ds T s) iT iT
  cpr i := q3 (arr T) 0 (ds T s) (d2s T s) (.inl i) iT iT * -t
  v := T.dgdp
  vr i := q2 (arr T) 0 (ds T s) (.inl i) iP
  vrr i j := q3 (arr T) 0 (ds T s) (d2s T s) (.inl i) (.inl j) iP
  vt := q2 (arr T) 0 (ds T s) iT iP
  vp := q2 (arr T) 0 (ds T s) iP iP
  vtt := q3 (arr T) 0 (ds T s) (d2s T s) iT iT iP
  vtp := q3 (arr T) 0 (ds T s) (d2s T s) iT iP iP
  vpp := q3 (arr T) 0 (ds T s) (d2s T s) iP iP iP
  vrt i := q3 (arr T) 0 (ds T s) (d2s T s) (.inl i) iT iP
  vrp i := q3 (arr T) 0 (ds T s) (d2s T s) (.inl i) iP iP

/-- `G(i), S(i), CP(i), V(i), …`, lines 611-624. -/
def Par.endStd (i : Fin 20) (t p : ℝ) : Std :=
  { P.std i t p with g := P.G t p i, s := P.S t p i, v := P.V t p i }

/-- What the mixing functions return; `X` is the speciation found by `order()`. -/
def liqMix (X : (Ext 18 → ℝ) → Fin 1 → ℝ) : Mix 18 := ofVal fun t p r =>
  (rawVal (code P (pt X (env r t p))) t (X (env r t p) 0)).add
    (mechVal (fun i : Fin 19 => P.endStd i.castSucc t p) t r)

/-! ### Specification: conditions -/

/-- Species fractions at conditions `θ` from which the components outside `A` have been removed. -/
def spAt (A : Finset (Fin 18)) (X : (Ext 18 → ℝ) → Fin 1 → ℝ) (θ : Ext 18 → ℝ) : Fin 20 → ℝ :=
  spOf (pt X (cutE (present A) θ))

/-- Liquids with the components of `A` and SiO2, among them CaSiO3 and CO2, in which `order()` has found a
speciation: every species is present, the reaction is at equilibrium, the equilibrium is regular and the
speciation varies continuously with the conditions. -/
structure Speciated (A : Finset (Fin 18)) (X : (Ext 18 → ℝ) → Fin 1 → ℝ) (U : Set (Ext 18 → ℝ)) : Prop where
  isOpen : IsOpen U
  ca : 9 ∈ A
  co2 : 13 ∈ A
  pos_t : ∀ θ ∈ U, 0 < θ iT
  smooth : ∀ θ ∈ U, ∀ i, Smooth (P.std i) (θ iT) (θ iP)
  sio2 : ∀ θ ∈ U, 0 < spAt A X θ 0
  comp : ∀ θ ∈ U, ∀ j ∈ A, 0 < spAt A X θ j.succ.castSucc
  caco3 : ∀ θ ∈ U, 0 < spAt A X θ 19
  stat : ∀ θ ∈ U, (code P (pt X (cutE (present A) θ))).dgds 0 = 0
  regular : ∀ θ ∈ U, (code P (pt X (cutE (present A) θ))).d2gds2 0 0 ≠ 0
  cont : ∀ θ ∈ U, ContinuousAt (fun θ => X (cutE (present A) θ)) θ

/-- Liquids with the components of `A` and SiO2 in which no carbonate forms. -/
structure Pinned (A : Finset (Fin 18)) (X : (Ext 18 → ℝ) → Fin 1 → ℝ) (U : Set (Ext 18 → ℝ)) : Prop where
  isOpen : IsOpen U
  pos_t : ∀ θ ∈ U, 0 < θ iT
  smooth : ∀ θ ∈ U, ∀ i, Smooth (P.std i) (θ iT) (θ iP)
  sio2 : ∀ θ ∈ U, 0 < spAt A X θ 0
  comp : ∀ θ ∈ U, ∀ j ∈ A, 0 < θ (.inl j)
  caco3 : ∀ θ ∈ U, X (cutE (present A) θ) = 0

/-! ### Species -/

lemma sp_zero (r : Fin 18 → ℝ) (s : ℝ) : sp r s 0 = 1 - ∑ j, r j + s := rfl
lemma sp_last (r : Fin 18 → ℝ) (s : ℝ) : sp r s 19 = s := by simp [sp]
lemma sp_succ (r : Fin 18 → ℝ) (s : ℝ) (j : Fin 18) :
    sp r s j.succ.castSucc = r j - if j = 9 ∨ j = 13 then s else 0 := by
  have h0 : j.succ.castSucc ≠ (0 : Fin 20) := by
    intro h; have := congrArg Fin.val h; simp at this
  have h1 : (j.succ.castSucc : Fin 20).val - 1 < 18 := by simp
  have h2 : (⟨(j.succ.castSucc : Fin 20).val - 1, h1⟩ : Fin 18) = j := by apply Fin.ext; simp
  have h3 : (j.succ.castSucc : Fin 20) = 10 ∨ (j.succ.castSucc : Fin 20) = 14 ↔ j = 9 ∨ j = 13 := by
    simp only [Fin.ext_iff, Fin.val_castSucc, Fin.val_succ]
    have a : ((10 : Fin 20) : ℕ) = 10 := rfl
    have b : ((14 : Fin 20) : ℕ) = 14 := rfl
    have c : ((9 : Fin 18) : ℕ) = 9 := rfl
    have d : ((13 : Fin 18) : ℕ) = 13 := rfl
    rw [a, b, c, d]; omega
  unfold sp
  rw [if_neg h0, dif_pos h1]
  simp only [h3, h2]

/-- The species fractions sum to one. -/
lemma sp_sum (r : Fin 18 → ℝ) (s : ℝ) : ∑ i, sp r s i = 1 := by
  rw [Fin.sum_univ_castSucc, Fin.sum_univ_succ]
  have e : ∀ j : Fin 18, sp r s j.succ.castSucc = r j - if j = 9 ∨ j = 13 then s else 0 := sp_succ r s
  have h : ∑ j : Fin 18, (if j = 9 ∨ j = 13 then s else 0) = 2 * s := by
    rw [Finset.sum_ite, sum_const_zero, add_zero, sum_const]
    have : (univ.filter fun j : Fin 18 => j = 9 ∨ j = 13).card = 2 := by decide
    rw [this]; ring
  simp only [e, sum_sub_distrib, h]
  have : sp r s (Fin.castSucc 0) = sp r s 0 := rfl
  rw [this, sp_zero]
  have : sp r s (Fin.last 19) = sp r s 19 := rfl
  rw [this, sp_last]
  ring

/-- Species present in a liquid with the components of `A`. -/
def has (A : Finset (Fin 18)) (c : Prop) (i : Fin 20) : Prop :=
  i = 0 ∨ (∃ j ∈ A, i = j.succ.castSucc) ∨ (i = 19 ∧ c)

lemma fin20 (i : Fin 20) : i = 0 ∨ i = 19 ∨ ∃ j : Fin 18, i = j.succ.castSucc := by
  by_cases h : i = 0
  · exact .inl h
  by_cases h' : i = 19
  · exact .inr (.inl h')
  have h1 : i.val ≠ 0 := fun e => h (Fin.ext e)
  have h2 : i.val ≠ 19 := fun e => h' (Fin.ext e)
  have := i.isLt
  exact .inr (.inr ⟨⟨i.val - 1, by omega⟩, by apply Fin.ext; simp; omega⟩)

lemma rOf_cut (A : Finset (Fin 18)) (X : (Ext 18 → ℝ) → Fin 1 → ℝ) (θ : Ext 18 → ℝ) (j : Fin 18) :
    rOf (pt X (cutE (present A) θ)) j = if j ∈ A then θ (.inl j) else 0 := by
  by_cases h : j ∈ A <;> simp [rOf, pt, cutE, present, h]

lemma tOf_cut (A : Finset (Fin 18)) (X : (Ext 18 → ℝ) → Fin 1 → ℝ) (θ : Ext 18 → ℝ) :
    tOf (pt X (cutE (present A) θ)) = θ iT := by simp [tOf, pt, cutE, present]
lemma pOf_cut (A : Finset (Fin 18)) (X : (Ext 18 → ℝ) → Fin 1 → ℝ) (θ : Ext 18 → ℝ) :
    pOf (pt X (cutE (present A) θ)) = θ iP := by simp [pOf, pt, cutE, present]

lemma succ_ne_zero' (j : Fin 18) : (j.succ.castSucc : Fin 20) ≠ 0 := by
  intro h; have := congrArg Fin.val h; simp at this
lemma succ_ne_last (j : Fin 18) : (j.succ.castSucc : Fin 20) ≠ 19 := by
  intro h
  have := congrArg Fin.val h
  have e : ((19 : Fin 20) : ℕ) = 19 := rfl
  rw [e] at this; simp at this; have := j.isLt; omega

lemma w_eq : (w : Fin 20) = (17 : Fin 18).succ.castSucc := by decide

lemma water_lt {r : Fin 18 → ℝ} {s : ℝ} (h0 : 0 < sp r s 0) (h : ∀ i, 0 ≤ sp r s i) : sp r s w < 1 := by
  have h1 := sp_sum r s
  have h2 : sp r s 0 + sp r s w ≤ ∑ i, sp r s i := by
    rw [← Finset.sum_pair (show (0 : Fin 20) ≠ w by decide)]
    exact Finset.sum_le_sum_of_subset_of_nonneg (Finset.subset_univ _) fun i _ _ => h i
  linarith

variable {P}

section guards
variable {A : Finset (Fin 18)} {X : (Ext 18 → ℝ) → Fin 1 → ℝ} {U : Set (Ext 18 → ℝ)} {θ : Ext 18 → ℝ}

lemma Speciated.guard (h : Speciated P A X U) (hθ : θ ∈ U) (i : Fin 20) :
    (0 < spAt A X θ i ↔ has A True i) ∧ 0 ≤ spAt A X θ i := by
  rcases fin20 i with e | e | ⟨j, e⟩
  · subst e; exact ⟨⟨fun _ => .inl rfl, fun _ => h.sio2 θ hθ⟩, (h.sio2 θ hθ).le⟩
  · subst e; exact ⟨⟨fun _ => .inr (.inr ⟨rfl, trivial⟩), fun _ => h.caco3 θ hθ⟩, (h.caco3 θ hθ).le⟩
  · by_cases hj : j ∈ A
    · subst e; exact ⟨⟨fun _ => .inr (.inl ⟨j, hj, rfl⟩), fun _ => h.comp θ hθ j hj⟩, (h.comp θ hθ j hj).le⟩
    · have h9 : ¬(j = 9 ∨ j = 13) := by
        rintro (a | a)
        · exact hj (a ▸ h.ca)
        · exact hj (a ▸ h.co2)
      have e0 : spAt A X θ i = 0 := by
        rw [e, spAt, spOf, sp_succ, rOf_cut, if_neg hj, if_neg h9, sub_zero]
      rw [e0]
      refine ⟨⟨fun a => absurd a (lt_irrefl 0), ?_⟩, le_refl 0⟩
      rintro (a | ⟨j', hj', a⟩ | ⟨a, -⟩)
      · exact absurd (e.symm.trans a) (succ_ne_zero' j)
      · have : j = j' := Fin.succ_injective _ (Fin.castSucc_injective _ (e.symm.trans a))
        exact absurd (this ▸ hj') hj
      · exact absurd (e.symm.trans a) (succ_ne_last j)

lemma Pinned.guard (h : Pinned P A X U) (hθ : θ ∈ U) (i : Fin 20) :
    (0 < spAt A X θ i ↔ has A False i) ∧ 0 ≤ spAt A X θ i := by
  have s0 : sOf (pt X (cutE (present A) θ)) = 0 := by
    change X (cutE (present A) θ) 0 = 0; rw [h.caco3 θ hθ]; rfl
  rcases fin20 i with e | e | ⟨j, e⟩
  · subst e; exact ⟨⟨fun _ => .inl rfl, fun _ => h.sio2 θ hθ⟩, (h.sio2 θ hθ).le⟩
  · subst e
    have e0 : spAt A X θ 19 = 0 := by rw [spAt, spOf, sp_last, s0]
    rw [e0]
    refine ⟨⟨fun a => absurd a (lt_irrefl 0), ?_⟩, le_refl 0⟩
    rintro (a | ⟨j', hj', a⟩ | ⟨-, a⟩)
    · exact absurd a (by decide)
    · exact absurd a.symm (succ_ne_last j')
    · exact a.elim
  · have e0 : spAt A X θ i = if j ∈ A then θ (.inl j) else 0 := by
      rw [e, spAt, spOf, sp_succ, rOf_cut, s0]; simp
    rw [e0]
    by_cases hj : j ∈ A
    · rw [if_pos hj]
      exact ⟨⟨fun _ => .inr (.inl ⟨j, hj, e⟩), fun _ => h.comp θ hθ j hj⟩, (h.comp θ hθ j hj).le⟩
    · rw [if_neg hj]
      refine ⟨⟨fun a => absurd a (lt_irrefl 0), ?_⟩, le_refl 0⟩
      rintro (a | ⟨j', hj', a⟩ | ⟨-, a⟩)
      · exact absurd (e.symm.trans a) (succ_ne_zero' j)
      · have : j = j' := Fin.succ_injective _ (Fin.castSucc_injective _ (e.symm.trans a))
        exact absurd (this ▸ hj') hj
      · exact a.elim

lemma code_eq {c : Prop} (h0 : 0 < spAt A X θ 0) (h : ∀ i, (0 < spAt A X θ i ↔ has A c i) ∧ 0 ≤ spAt A X θ i) :
    code P (pt X (cutE (present A) θ)) = tabs P (has A c) (has A c w) (pt X (cutE (present A) θ)) := by
  have e1 : (fun i => 0 < spOf (pt X (cutE (present A) θ)) i) = has A c := funext fun i => propext (h i).1
  have e2 : (0 < spOf (pt X (cutE (present A) θ)) w ∧ spOf (pt X (cutE (present A) θ)) w < 1) = has A c w :=
    propext ⟨fun a => ((h w).1).1 a.1, fun a => ⟨((h w).1).2 a, water_lt h0 fun i => (h i).2⟩⟩
  unfold code
  rw [e1, e2]

lemma dom_of {c : Prop} (ht : 0 < θ iT) (hs : ∀ i, Smooth (P.std i) (θ iT) (θ iP)) (h0 : 0 < spAt A X θ 0)
    (h : ∀ i, (0 < spAt A X θ i ↔ has A c i) ∧ 0 ≤ spAt A X θ i) :
    Dom P (has A c) (has A c w) (pt X (cutE (present A) θ)) := by
  refine ⟨by rw [tOf_cut]; exact ht, fun i => by rw [tOf_cut, pOf_cut]; exact hs i, fun i hi => ((h i).1).2 hi, ?_⟩
  exact fun a => ⟨((h w).1).2 a, water_lt h0 fun i => (h i).2⟩

end guards

/-! ### Consistency -/

lemma Smooth.t1 {f : ℝ → ℝ → ℝ} {t p a b : ℝ} (h : D2 f t p a b) : HasDerivAt (fun t => f t p) a t := by
  have h1 : HasDerivAt (fun t : ℝ => (t, p)) ((1 : ℝ), (0 : ℝ)) t := (hasDerivAt_id' t).prodMk (hasDerivAt_const t p)
  have h2 : HasFDerivAt (fun u : ℝ × ℝ => f u.1 u.2)
    (a • ContinuousLinearMap.fst ℝ ℝ ℝ + b • ContinuousLinearMap.snd ℝ ℝ ℝ) (t, p) := h
  have h3 := HasFDerivAt.comp_hasDerivAt (f := fun t : ℝ => (t, p)) t h2 h1
  exact h3.congr_deriv (by simp)

lemma Smooth.p1 {f : ℝ → ℝ → ℝ} {t p a b : ℝ} (h : D2 f t p a b) : HasDerivAt (fun p => f t p) b p := by
  have h1 : HasDerivAt (fun p : ℝ => (t, p)) ((0 : ℝ), (1 : ℝ)) p := (hasDerivAt_const p t).prodMk (hasDerivAt_id' p)
  have h2 : HasFDerivAt (fun u : ℝ × ℝ => f u.1 u.2)
    (a • ContinuousLinearMap.fst ℝ ℝ ℝ + b • ContinuousLinearMap.snd ℝ ℝ ℝ) (t, p) := h
  have h3 := HasFDerivAt.comp_hasDerivAt (f := fun p : ℝ => (t, p)) p h2 h1
  exact h3.congr_deriv (by simp)

lemma endOk {i : Fin 20} {t p : ℝ} (h : Smooth (P.std i) t p) : EndOk (P.endStd i) t p := by
  have hg := h.g.add (D2.lin (P.eh i) (P.es i) (P.ev i) t p)
  have hg' : D2 (fun t p => P.G t p i) t p (-P.S t p i) (P.V t p i) := by
    refine (D2.congr hg ?_ rfl).fn ?_
    · simp [Par.S]; ring
    · intro t p; simp [Par.G]; ring
  have hs : D2 (fun t p => P.S t p i) t p ((P.std i t p).cp / t) (-(P.std i t p).dvdt) :=
    (h.s.add (D2.const (P.es i) t p)).congr (by ring) (by ring)
  have hv : D2 (fun t p => P.V t p i) t p (P.std i t p).dvdt (P.std i t p).dvdp :=
    (h.v.add (D2.const (P.ev i) t p)).congr (by ring) (by ring)
  have a1 := Smooth.t1 hg'
  have a2 := Smooth.t1 hs
  have a3 := Smooth.t1 h.cp
  have a4 := Smooth.p1 hg'
  have a5 := Smooth.t1 hv
  have a6 := Smooth.p1 hv
  have a7 := Smooth.t1 h.dvdt
  have a8 := Smooth.p1 h.dvdt
  have a9 := Smooth.p1 h.dvdp
  exact ⟨a1, a2, a3, a4, a5, a6, a7, a8, a9⟩

lemma arr_dS {y : Var 18 1 → ℝ} (T : (Var 18 1 → ℝ) → Tables 18 1) (i : Ext 18) :
    dS (arr (T y)) 0 i = dS (jets T) y i := rfl
lemma arr_d2S {y : Var 18 1 → ℝ} (T : (Var 18 1 → ℝ) → Tables 18 1) (i j : Ext 18) :
    d2S (arr (T y)) 0 i j = d2S (jets T) y i j := rfl

/-- With a speciation the values are those of the scheme for phases with ordering. -/
lemma rawVal_spec (T : (Var 18 1 → ℝ) → Tables 18 1) (X : (Ext 18 → ℝ) → Fin 1 → ℝ) (t p : ℝ) (r : Fin 18 → ℝ)
    (h : 0 < X (env r t p) 0) :
    rawVal (T (pt X (env r t p))) t (X (env r t p) 0) = valOf (ordMix (jets T) (fun y => (T y).s) X) t p r := by
  have e1 : ds (T (pt X (env r t p))) (X (env r t p) 0) = dS (jets T) (pt X (env r t p)) := by
    funext i; unfold ds; rw [if_pos h, arr_dS]
  have e2 : d2s (T (pt X (env r t p))) (X (env r t p) 0) = d2S (jets T) (pt X (env r t p)) := by
    funext i j; unfold d2s; rw [if_pos h, arr_d2S]
  unfold rawVal
  rw [e1, e2]
  rfl

/-- Without carbonate they are those of a phase without ordering. -/
lemma rawVal_pin (T : (Var 18 1 → ℝ) → Tables 18 1) (X : (Ext 18 → ℝ) → Fin 1 → ℝ) (t p : ℝ) (r : Fin 18 → ℝ)
    (h : X (env r t p) = 0) :
    rawVal (T (pt X (env r t p))) t (X (env r t p) 0)
      = valOf (ordMix (jets T).pin (fun y => (T (pin0 (Fin 1) y)).s) fun _ => Fin.elim0) t p r := by
  have e0 : pin0 (Fin 1) (pt (fun _ => Fin.elim0) (env r t p)) = pt X (env r t p) := by
    funext i
    rcases i with i | i
    · rfl
    · simp [pin0, pt, h]
  have e1 : ds (T (pt X (env r t p))) (X (env r t p) 0) = fun _ _ => 0 := by
    funext i; unfold ds; rw [h, if_neg (by simp)]
  have e2 : d2s (T (pt X (env r t p))) (X (env r t p) 0) = fun _ _ _ => 0 := by
    funext i j; unfold d2s; rw [h, if_neg (by simp)]
  have e3 : ∀ i j, q2 (arr (T (pt X (env r t p)))) 0 (fun _ _ => 0) i j
      = (jets T).g2 (pt X (env r t p)) (.inl i) (.inl j) := fun i j => by simp [q2]; rfl
  have e4 : ∀ i j k, q3 (arr (T (pt X (env r t p)))) 0 (fun _ _ => 0) (fun _ _ _ => 0) i j k
      = (jets T).g3 (pt X (env r t p)) (.inl i) (.inl j) (.inl k) := fun i j k => by simp [q3]; rfl
  have e5 : ∀ i j k, q3s (arr (T (pt X (env r t p)))) 0 (fun _ _ => 0) i j k
      = (jets T).g3 (pt X (env r t p)) (.inl i) (.inl j) (.inl k) := fun i j k => by simp [q3s]; rfl
  unfold rawVal
  rw [e1, e2]
  simp only [e3, e4, e5, valOf, ordMix, pin_r1, pin_r2, pin_r3, pin_r3s, e0]
  simp only [Jets.pin, e0, Sum.elim_inl]
  rfl

lemma on_val {nr : ℕ} (A : Finset (Fin nr)) (M : Mix nr) (t p : ℝ) (r : Fin nr → ℝ) :
    valOf (on A M) t p r = (valOf M t p (mask A r)).cut A := rfl

lemma cut_add {nr : ℕ} (A : Finset (Fin nr)) (a b : MixVal nr) : (a.add b).cut A = (a.cut A).add (b.cut A) := by
  ext <;> simp only [MixVal.cut, MixVal.add]
  all_goals (split_ifs <;> simp)

/-- From the properties of the solution to those of mixing. -/
lemma consistent_of_raw {A : Finset (Fin 18)} {X : (Ext 18 → ℝ) → Fin 1 → ℝ} {U : Set (Ext 18 → ℝ)} (hU : IsOpen U)
    (ht : ∀ θ ∈ U, 0 < θ iT) (hs : ∀ θ ∈ U, ∀ i, Smooth (P.std i) (θ iT) (θ iP)) {M : Mix 18}
    (hM : ConsistentOn M (On U)) (e : ∀ t p r, On U t p r → valOf M t p r
      = (rawVal (code P (pt X (env (mask A r) t p))) t (X (env (mask A r) t p) 0)).cut A) :
    ConsistentOn (on A (liqMix P X)) (On U) := by
  have h2 := (mech_consistent fun (i : Fin 19) t p => P.endStd i.castSucc t p).on A
  have h2' : ConsistentOn (on A (ofVal fun t p r => mechVal (fun i : Fin 19 => P.endStd i.castSucc t p) t r)) (On U) := by
    have k : ∀ t p r, On U t p r → t ≠ 0 ∧ ∀ i : Fin 19, EndOk (P.endStd i.castSucc) t p := fun t p r hu =>
      ⟨(ht _ hu).ne', fun i => endOk (hs _ hu i.castSucc)⟩
    exact ⟨fun t p r hu => h2.g_r t p r (k t p r hu), fun t p r hu => h2.g_rr t p r (k t p r hu),
      fun t p r hu => h2.g_rrr t p r (k t p r hu), fun t p r hu => h2.g_t t p r (k t p r hu),
      fun t p r hu => h2.h_eq t p r (k t p r hu), fun t p r hu => h2.s_r t p r (k t p r hu),
      fun t p r hu => h2.s_rr t p r (k t p r hu), fun t p r hu => h2.h_t t p r (k t p r hu),
      fun t p r hu => h2.cp_t t p r (k t p r hu), fun t p r hu => h2.cp_r t p r (k t p r hu),
      fun t p r hu => h2.g_p t p r (k t p r hu), fun t p r hu => h2.v_r t p r (k t p r hu),
      fun t p r hu => h2.v_rr t p r (k t p r hu), fun t p r hu => h2.v_t t p r (k t p r hu),
      fun t p r hu => h2.v_p t p r (k t p r hu), fun t p r hu => h2.v_tt t p r (k t p r hu),
      fun t p r hu => h2.v_tp t p r (k t p r hu), fun t p r hu => h2.v_pp t p r (k t p r hu),
      fun t p r hu => h2.v_rt t p r (k t p r hu), fun t p r hu => h2.v_rp t p r (k t p r hu),
      fun t p r hu => h2.g_rt t p r (k t p r hu), fun t p r hu => h2.g_rp t p r (k t p r hu),
      fun t p r hu => h2.s_rt t p r (k t p r hu), fun t p r hu => h2.vp_r t p r (k t p r hu),
      fun t p r hu => h2.sym2 t p r (k t p r hu), fun t p r hu => h2.sym3 t p r (k t p r hu)⟩
  refine (hM.add h2').congr hU fun t p r hu => ?_
  have e1 : valOf (ofVal fun t p r => (valOf M t p r).add (valOf (on A
      (ofVal fun t p r => mechVal (fun i : Fin 19 => P.endStd i.castSucc t p) t r)) t p r)) t p r
      = (valOf M t p r).add (valOf (on A
      (ofVal fun t p r => mechVal (fun i : Fin 19 => P.endStd i.castSucc t p) t r)) t p r) := rfl
  rw [e1, e t p r hu, on_val, on_val, ← cut_add]
  rfl

/-- **C66.** In a liquid with dissolved carbonate, whatever other components are absent, every derivative of the
reported properties of mixing with respect to temperature, pressure and the amounts of the components present is
the derivative of the reported property, at equilibrium of the speciation reaction. -/
theorem C66_speciated {A : Finset (Fin 18)} {X : (Ext 18 → ℝ) → Fin 1 → ℝ} {U : Set (Ext 18 → ℝ)}
    (h : Speciated P A X U) : ConsistentOn (on A (liqMix P X)) (On U) := by
  set J := jets (tabs P (has A True) (has A True w)) with hJ
  set E : (Var 18 1 → ℝ) → ℝ := fun y => (tabs P (has A True) (has A True w) y).s with hE
  have ok : (J.cut (present A)).Ok _ := Jets.cut_ok (tabs_ok P (has A True) (has A True w)) (present A)
  have ce : ∀ θ ∈ U, code P (pt X (cutE (present A) θ)) = _ := fun θ hθ => code_eq (h.sio2 θ hθ) (h.guard hθ)
  have dm : ∀ θ ∈ U, Dom P (has A True) (has A True w) (pt X (cutE (present A) θ)) := fun θ hθ =>
    dom_of (h.pos_t θ hθ) (h.smooth θ hθ) (h.sio2 θ hθ) (h.guard hθ)
  have hS : Solved (J.cut (present A)) (fun x => Dom P (has A True) (has A True w) (cutE (keepV (present A)) x))
      (fun θ => X (cutE (present A) θ)) U := by
    refine ⟨h.isOpen, fun θ hθ => ?_, fun θ hθ k => ?_, fun θ hθ => ?_, h.cont⟩
    · rw [cutE_pt]; exact dm θ hθ
    · have := h.stat θ hθ
      rw [ce θ hθ] at this
      rw [cut_g1, cutE_pt]
      exact (if_pos trivial).trans this
    · rw [cut_negHess, cutE_pt]
      have := h.regular θ hθ
      rw [ce θ hθ] at this
      rw [Matrix.det_fin_one]
      exact neg_ne_zero.2 this
  have hc := C24_ordering ok (E := fun x => E (cutE (keepV (present A)) x)) (fun x _ => by
    rw [cut_g1]; exact if_pos trivial) hS
  refine consistent_of_raw h.isOpen h.pos_t h.smooth hc fun t p r hu => ?_
  have hθ : env r t p ∈ U := hu
  have h0 : 0 < X (env (mask A r) t p) 0 := by
    have := h.caco3 _ hθ
    rw [spAt, spOf, sp_last, cutE_env] at this
    exact this
  rw [valOf_cut, on_val, ← rawVal_spec (tabs P (has A True) (has A True w)) X t p (mask A r) h0]
  have := ce _ hθ
  rw [cutE_env] at this
  rw [this]

/-- **C66.** The same in a liquid without carbonate. -/
theorem C66_unspeciated {A : Finset (Fin 18)} {X : (Ext 18 → ℝ) → Fin 1 → ℝ} {U : Set (Ext 18 → ℝ)}
    (h : Pinned P A X U) : ConsistentOn (on A (liqMix P X)) (On U) := by
  set J := (jets (tabs P (has A False) (has A False w))).pin with hJ
  set E : (Ext 18 ⊕ Fin 0 → ℝ) → ℝ := fun y => (tabs P (has A False) (has A False w) (pin0 (Fin 1) y)).s with hE
  set X0 : (Ext 18 → ℝ) → Fin 0 → ℝ := fun _ => Fin.elim0 with hX0
  have ok : (J.cut (present A)).Ok _ :=
    Jets.cut_ok (Jets.pin_ok (tabs_ok P (has A False) (has A False w))) (present A)
  have ce : ∀ θ ∈ U, code P (pt X (cutE (present A) θ)) = _ := fun θ hθ => code_eq (h.sio2 θ hθ) (h.guard hθ)
  have dm : ∀ θ ∈ U, Dom P (has A False) (has A False w) (pt X (cutE (present A) θ)) := fun θ hθ =>
    dom_of (h.pos_t θ hθ) (h.smooth θ hθ) (h.sio2 θ hθ) (h.guard hθ)
  have hS : Solved (J.cut (present A)) (fun x => Dom P (has A False) (has A False w)
      (pin0 (Fin 1) (cutE (keepV (present A)) x))) (fun θ => X0 (cutE (present A) θ)) U := by
    refine ⟨h.isOpen, fun θ hθ => ?_, fun θ hθ k => k.elim0, fun θ hθ => ?_, fun θ hθ => ?_⟩
    · rw [cutE_pt]
      have : pin0 (Fin 1) (pt X0 (cutE (present A) θ)) = pt X (cutE (present A) θ) := by
        funext i
        rcases i with i | i
        · rfl
        · simp [pin0, pt, h.caco3 θ hθ]
      rw [this]; exact dm θ hθ
    · rw [Matrix.det_isEmpty]; exact one_ne_zero
    · exact continuousAt_const
  have hc := C24_ordering ok (E := fun x => E (cutE (keepV (present A)) x)) (fun x _ => by
    rw [cut_g1]; exact if_pos trivial) hS
  refine consistent_of_raw h.isOpen h.pos_t h.smooth hc fun t p r hu => ?_
  have hθ : env r t p ∈ U := hu
  have h0 : X (env (mask A r) t p) = 0 := by
    have := h.caco3 _ hθ
    rwa [cutE_env] at this
  rw [valOf_cut, on_val, ← rawVal_pin (tabs P (has A False) (has A False w)) X t p (mask A r) h0]
  have := ce _ hθ
  rw [cutE_env] at this
  rw [this]

end

end Verif.Thermo.LiquidCO2
