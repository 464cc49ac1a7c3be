import Verif.Thermo.Redox
import Verif.Thermo.Extensive
import Mathlib.Analysis.SpecialFunctions.Log.Deriv
import Mathlib.Analysis.Calculus.Deriv.Inv
import Mathlib.Analysis.Calculus.Deriv.Pow
import Mathlib.Algebra.BigOperators.Field

/-!
Model of `muO2Liq`, `muO2Liq_CO2`, `muO2Liq_CO2_H2O` (/repo/sources/liquid.c 9718-9932, liquid_CO2.c and
liquid_CO2_H2O.c 4412-4606, identical text) and `muO2Liq_v34` (/repo/sources/liquid_v34.c 745-928): the chemical potential of
O2 in the liquid relative to pure O2 and its derivatives. Property C59.

Simplifications: `double` is the real numbers; the positions of FeO and Fe2O3 are the two indices `fe2`, `fe3`; `capped`
distinguishes the versions as in `Redox` (true: liquid.c and the CO2 versions; false: liquid_v34.c).
-/

namespace Magma.Thermo.MuO2

open Finset Magma.Thermo.Redox Magma.Thermo.Extensive

noncomputable section

variable {nc nlc : ℕ}

/-! ### The code -/

/-- silmin.h 368. -/
def R : ℝ := 8.3143

/-- Moles of oxides, liquid.c 9785-9786. -/
def oxides (L : Fin nlc → Fin nc → ℝ) (m : Fin nlc → ℝ) (i : Fin nc) : ℝ := ∑ j, L j i * m j

/-- `sum`, liquid.c 9788. -/
def total (fe3 : Fin nc) (o : Fin nc → ℝ) : ℝ := (∑ i, o i) + o fe3

/-- Test of liquid.c 9789. -/
def Absent (fe2 fe3 : Fin nc) (o : Fin nc → ℝ) : Prop := total fe3 o = 0 ∨ o fe2 = 0 ∨ o fe3 = 0

open Classical in
/-- The return of zeros, liquid.c 9789-9803. -/
def guarded (fe2 fe3 : Fin nc) (o : Fin nc → ℝ) (x : ℝ) : ℝ := if Absent fe2 fe3 o then 0 else x

/-- `temp`, liquid.c 9809-9815 and 9839-9845. -/
def temp (capped : Bool) (fe2 fe3 : Fin nc) (coeff : Fin nc → ℝ) (t p : ℝ) (o : Fin nc → ℝ) : ℝ :=
  tpTerm capped t p + ∑ i, coeff i * o i / total fe3 o +
    (2 * coeff fe2 * o fe3 / total fe3 o - coeff fe3 * o fe3 / total fe3 o)

/-- `*muO2` (mask FIRST), liquid.c 9807-9817. -/
def mu (capped : Bool) (fe2 fe3 : Fin nc) (coeff : Fin nc → ℝ) (L : Fin nlc → Fin nc → ℝ) (t p : ℝ) (m : Fin nlc → ℝ) : ℝ :=
  let o := oxides L m
  guarded fe2 fe3 o (R * t * (Real.log (o fe3 / o fe2) - temp capped fe2 fe3 coeff t p o) / cA)

/-- `factor`, liquid.c 9821. -/
def factor (fe3 j : Fin nc) : ℝ := if j = fe3 then 2 else 1

/-- `vTemp[j]` before the last line, liquid.c 9821-9835 and 9888-9902. -/
def vTemp (fe2 fe3 : Fin nc) (coeff o : Fin nc → ℝ) (j : Fin nc) : ℝ :=
  (-∑ i, if i = j then coeff i * (1 - factor fe3 j * o i / total fe3 o) / total fe3 o
      else -(coeff i * factor fe3 j * o i / total fe3 o ^ 2)) +
  -(factor fe3 j * o fe3 / total fe3 o ^ 2) * (coeff fe3 - 2 * coeff fe2) +
  (if j = fe2 then -1 / o fe2
   else if j = fe3 then 1 / o fe3 + 1 / total fe3 o * (coeff fe3 - 2 * coeff fe2) else 0)

/-- `dm[i]` (SECOND), liquid.c 9819-9839. -/
def dm (fe2 fe3 : Fin nc) (coeff : Fin nc → ℝ) (L : Fin nlc → Fin nc → ℝ) (t : ℝ) (m : Fin nlc → ℝ) (i : Fin nlc) : ℝ :=
  let o := oxides L m
  guarded fe2 fe3 o (∑ j, vTemp fe2 fe3 coeff o j * (R * t / cA) * L i j)

/-- `*dt` (THIRD), liquid.c 9841-9853, liquid_v34.c 839-851. -/
def dt (capped : Bool) (fe2 fe3 : Fin nc) (coeff : Fin nc → ℝ) (L : Fin nlc → Fin nc → ℝ) (t p : ℝ) (m : Fin nlc → ℝ) : ℝ :=
  let o := oxides L m
  guarded fe2 fe3 o
    (R * (Real.log (o fe3 / o fe2) - temp capped fe2 fe3 coeff t p o) / cA +
      R * t * (cB / t ^ 2 - cE * (cT0 / t - 1) * (1 / t)) / cA +
      if capped = false ∨ p < 50000 then
        R * t * (cF * p / t ^ 2 - cG * (cT0 / t) * (p / t) + cH * (p / t) ^ 2) / cA
      else
        R * t * (cF * 50000 / t ^ 2 - cG * (cT0 / t) * (50000 / t) + cH * (50000 / t) ^ 2 -
          cA * Real.log 10 * (608.966 * p / 10000 - 608.966 * 5) / t ^ 2) / cA)

/-- `*dp` (FOURTH), liquid.c 9855-9858. -/
def dp (capped : Bool) (fe2 fe3 : Fin nc) (L : Fin nlc → Fin nc → ℝ) (t p : ℝ) (m : Fin nlc → ℝ) : ℝ :=
  guarded fe2 fe3 (oxides L m)
    (if capped = false ∨ p < 50000 then R * t * (-cF / t - cG * (t - cT0) / t - 2 * cH * p / t) / cA
     else R * t * (cA * Real.log 10 * 608.966 / 10000 / t) / cA)

/-- `mTemp[k][j]` before the last line, liquid.c 9863-9886. -/
def mTemp (fe2 fe3 : Fin nc) (coeff o : Fin nc → ℝ) (k j : Fin nc) : ℝ :=
  let s := total fe3 o
  let fJ := factor fe3 j
  let fK := factor fe3 k
  (∑ i, (-(2 * fJ * fK * coeff i * o i / s ^ 3) - (if i = j then -(fK * coeff i / s ^ 2) else 0) -
    (if i = k then -(fJ * coeff i / s ^ 2) else 0))) +
  2 * (fJ * fK * o fe3 / s ^ 3) * (coeff fe3 - 2 * coeff fe2) +
  (if j = fe2 ∧ k = fe2 then 1 / o fe2 ^ 2
   else if j = fe3 ∧ k = fe3 then -1 / o fe3 ^ 2 + -((fJ + fK) / s ^ 2) * (coeff fe3 - 2 * coeff fe2)
   else if j = fe3 then -(fK / s ^ 2) * (coeff fe3 - 2 * coeff fe2)
   else if k = fe3 then -(fJ / s ^ 2) * (coeff fe3 - 2 * coeff fe2) else 0)

/-- `d2m[i][j]` (FIFTH), liquid.c 9860-9891. -/
def d2m (fe2 fe3 : Fin nc) (coeff : Fin nc → ℝ) (L : Fin nlc → Fin nc → ℝ) (t : ℝ) (m : Fin nlc → ℝ) (i j : Fin nlc) : ℝ :=
  let o := oxides L m
  guarded fe2 fe3 o (∑ k, ∑ l, mTemp fe2 fe3 coeff o k l * (R * t / cA) * L i k * L j l)

/-- `d2mt[i]` (SIXTH), liquid.c 9893-9913. -/
def d2mt (fe2 fe3 : Fin nc) (coeff : Fin nc → ℝ) (L : Fin nlc → Fin nc → ℝ) (m : Fin nlc → ℝ) (i : Fin nlc) : ℝ :=
  let o := oxides L m
  guarded fe2 fe3 o (∑ j, vTemp fe2 fe3 coeff o j * (R / cA) * L i j)

/-- `d2mp[i]` (SEVENTH), liquid.c 9915-9917. -/
def d2mp : ℝ := 0

/-- `*d2t2` (EIGHTH), liquid.c 9919-9923 and, with the pressure terms, liquid_v34.c 913-918. -/
def d2t2 (capped : Bool) (fe2 fe3 : Fin nc) (L : Fin nlc → Fin nc → ℝ) (t p : ℝ) (m : Fin nlc → ℝ) : ℝ :=
  guarded fe2 fe3 (oxides L m)
    (if capped then
      2 * R * (cB / t ^ 2 - cE * (cT0 / t - 1) * (1 / t)) / cA +
        R * t * (-2 * cB / t ^ 3 - cE * (1 - 2 * cT0 / t) / t ^ 2) / cA
     else
      2 * R * (cB / t ^ 2 - cE * (cT0 / t - 1) * (1 / t) + cF * p / t ^ 2 - cG * (cT0 / t) * (p / t) + cH * (p / t) ^ 2) / cA +
        R * t * (-2 * cB / t ^ 3 - cE * (1 - 2 * cT0 / t) / t ^ 2 - 2 * cF * p / t ^ 3 + 2 * cG * cT0 * p / t ^ 3 -
          2 * cH * (p / t) ^ 2 / t) / cA)

/-- `*d2tp` (NINTH), liquid.c 9925-9928. -/
def d2tp (capped : Bool) (fe2 fe3 : Fin nc) (L : Fin nlc → Fin nc → ℝ) (t p : ℝ) (m : Fin nlc → ℝ) : ℝ :=
  guarded fe2 fe3 (oxides L m)
    (if capped = false ∨ p < 50000 then
      -R * (cF / t + cG * (t - cT0) / t + 2 * cH * p / t) / cA +
        R * t * (cF / t ^ 2 - cG * (cT0 / t) / t + 2 * cH * p / t ^ 2) / cA
     else
      -R * (-cA * Real.log 10 * 608.966 / 10000 / t) / cA + R * t * (-cA * Real.log 10 * 608.966 / 10000 / t ^ 2) / cA)

/-- `*d2p2` (TENTH), liquid.c 9930-9933. -/
def d2p2 (capped : Bool) (fe2 fe3 : Fin nc) (L : Fin nlc → Fin nc → ℝ) (t p : ℝ) (m : Fin nlc → ℝ) : ℝ :=
  guarded fe2 fe3 (oxides L m) (if capped = false ∨ p < 50000 then -(R * t * 2 * cH / t) / cA else 0)

/-! ### Lemmas -/

theorem cA_ne : cA ≠ 0 := by unfold cA; norm_num

/-- The composition dependent part: a quotient of two linear functions of the oxides. -/
def lin (fe2 fe3 : Fin nc) (coeff o : Fin nc → ℝ) : ℝ := (∑ i, coeff i * o i) - (coeff fe3 - 2 * coeff fe2) * o fe3

theorem temp_eq (capped : Bool) (fe2 fe3 : Fin nc) (coeff : Fin nc → ℝ) (t p : ℝ) (o : Fin nc → ℝ) :
    temp capped fe2 fe3 coeff t p o = tpTerm capped t p + lin fe2 fe3 coeff o / total fe3 o := by
  unfold temp lin
  rw [← sum_div]
  ring

theorem factor_sum (fe3 : Fin nc) (l : Fin nc → ℝ) : ∑ j, factor fe3 j * l j = total fe3 l := by
  unfold factor total
  have : ∀ j, (if j = fe3 then (2 : ℝ) else 1) * l j = l j + if j = fe3 then l j else 0 := by
    intro j; split_ifs <;> ring
  simp only [this, sum_add_distrib, sum_ite_eq', mem_univ, if_true]

theorem vTemp_eq (fe2 fe3 : Fin nc) (hne : fe2 ≠ fe3) (coeff o : Fin nc → ℝ) (j : Fin nc) :
    vTemp fe2 fe3 coeff o j =
      -(coeff j / total fe3 o) + factor fe3 j * (lin fe2 fe3 coeff o / total fe3 o ^ 2) +
      (if j = fe2 then -1 / o fe2 else 0) +
      (if j = fe3 then 1 / o fe3 + (coeff fe3 - 2 * coeff fe2) / total fe3 o else 0) := by
  unfold vTemp lin
  have e : ∀ i, (if i = j then coeff i * (1 - factor fe3 j * o i / total fe3 o) / total fe3 o
      else -(coeff i * factor fe3 j * o i / total fe3 o ^ 2)) =
      (if i = j then coeff i / total fe3 o else 0) - (coeff i * o i) * (factor fe3 j / total fe3 o ^ 2) := by
    intro i; split_ifs <;> ring
  simp only [e, sum_sub_distrib, sum_ite_eq', mem_univ, if_true, ← sum_mul]
  by_cases h2 : j = fe2
  · subst h2; simp only [if_true, if_neg hne]; ring
  · by_cases h3 : j = fe3
    · subst h3; simp only [if_true, if_neg h2]; ring
    · simp only [if_neg h2, if_neg h3]; ring

/-- Directional derivative of the composition dependent part along the oxides `l`. -/
theorem vTemp_sum (fe2 fe3 : Fin nc) (hne : fe2 ≠ fe3) (coeff o l : Fin nc → ℝ) (x : ℝ) :
    ∑ j, vTemp fe2 fe3 coeff o j * x * l j =
      x * (l fe3 / o fe3 - l fe2 / o fe2 - lin fe2 fe3 coeff l / total fe3 o +
        lin fe2 fe3 coeff o * total fe3 l / total fe3 o ^ 2) := by
  have e : ∀ j, vTemp fe2 fe3 coeff o j * x * l j =
      x * (-(coeff j * l j / total fe3 o) + (factor fe3 j * l j) * (lin fe2 fe3 coeff o / total fe3 o ^ 2) +
      (if j = fe2 then -l j / o fe2 else 0) +
      (if j = fe3 then l j / o fe3 + (coeff fe3 - 2 * coeff fe2) / total fe3 o * l j else 0)) := by
    intro j
    rw [vTemp_eq _ _ hne]
    split_ifs <;> ring
  simp only [e, ← mul_sum, sum_add_distrib, sum_neg_distrib, ← sum_div, ← sum_mul, factor_sum, sum_ite_eq', mem_univ, if_true]
  simp only [lin]
  ring

theorem mTemp_eq (fe2 fe3 : Fin nc) (hne : fe2 ≠ fe3) (coeff o : Fin nc → ℝ) (k j : Fin nc) :
    mTemp fe2 fe3 coeff o k j =
      -(2 * factor fe3 j * factor fe3 k * lin fe2 fe3 coeff o / total fe3 o ^ 3) +
      factor fe3 k * coeff j / total fe3 o ^ 2 + factor fe3 j * coeff k / total fe3 o ^ 2 +
      (if j = fe2 then (if k = fe2 then 1 / o fe2 ^ 2 else 0) else 0) +
      (if j = fe3 then (if k = fe3 then -1 / o fe3 ^ 2 else 0) else 0) +
      (if j = fe3 then -(factor fe3 k / total fe3 o ^ 2) * (coeff fe3 - 2 * coeff fe2) else 0) +
      (if k = fe3 then -(factor fe3 j / total fe3 o ^ 2) * (coeff fe3 - 2 * coeff fe2) else 0) := by
  unfold mTemp lin
  have e : ∀ i, (-(2 * factor fe3 j * factor fe3 k * coeff i * o i / total fe3 o ^ 3) -
      (if i = j then -(factor fe3 k * coeff i / total fe3 o ^ 2) else 0) -
      (if i = k then -(factor fe3 j * coeff i / total fe3 o ^ 2) else 0)) =
      -((coeff i * o i) * (2 * factor fe3 j * factor fe3 k / total fe3 o ^ 3)) -
      (if i = j then -(factor fe3 k * coeff i / total fe3 o ^ 2) else 0) -
      (if i = k then -(factor fe3 j * coeff i / total fe3 o ^ 2) else 0) := by
    intro i; ring
  simp only [e, sum_sub_distrib, sum_neg_distrib, sum_ite_eq', mem_univ, if_true, ← sum_mul]
  by_cases h2 : j = fe2 <;> by_cases h3 : j = fe3 <;> by_cases k2 : k = fe2 <;> by_cases k3 : k = fe3 <;>
    simp only [h2, h3, k2, k3, hne, hne.symm, if_true, if_false, and_self, and_true, and_false, false_and, true_and] <;>
    (try exact absurd (h2.symm.trans h3) hne) <;> (try exact absurd (k2.symm.trans k3) hne) <;> ring

theorem mTemp_sum (fe2 fe3 : Fin nc) (hne : fe2 ≠ fe3) (coeff o a b : Fin nc → ℝ) (x : ℝ) :
    ∑ k, ∑ l, mTemp fe2 fe3 coeff o k l * x * a k * b l =
      x * (-(a fe3 * b fe3) / o fe3 ^ 2 + a fe2 * b fe2 / o fe2 ^ 2 +
        lin fe2 fe3 coeff a * total fe3 b / total fe3 o ^ 2 + lin fe2 fe3 coeff b * total fe3 a / total fe3 o ^ 2 -
        2 * lin fe2 fe3 coeff o * total fe3 a * total fe3 b / total fe3 o ^ 3) := by
  have e : ∀ k l, mTemp fe2 fe3 coeff o k l * x * a k * b l =
      (factor fe3 l * b l) * (-(2 * (factor fe3 k * a k) * lin fe2 fe3 coeff o / total fe3 o ^ 3) * x) +
      (coeff l * b l) * ((factor fe3 k * a k) / total fe3 o ^ 2 * x) +
      (factor fe3 l * b l) * (coeff k * a k / total fe3 o ^ 2 * x) +
      (if l = fe2 then b l * ((if k = fe2 then a k / o fe2 ^ 2 * x else 0)) else 0) +
      (if l = fe3 then b l * ((if k = fe3 then -a k / o fe3 ^ 2 * x else 0)) else 0) +
      (if l = fe3 then b l * (-((factor fe3 k * a k) / total fe3 o ^ 2) * (coeff fe3 - 2 * coeff fe2) * x) else 0) +
      (factor fe3 l * b l) * (if k = fe3 then -(a k / total fe3 o ^ 2) * (coeff fe3 - 2 * coeff fe2) * x else 0) := by
    intro k l
    rw [mTemp_eq _ _ hne]
    split_ifs <;> ring
  simp only [e, sum_add_distrib, ← sum_mul, ← mul_sum, factor_sum, sum_ite_eq', mem_univ, if_true]
  have e1 : ∀ k, -(2 * (factor fe3 k * a k) * lin fe2 fe3 coeff o / total fe3 o ^ 3) =
      (factor fe3 k * a k) * (-(2 * lin fe2 fe3 coeff o / total fe3 o ^ 3)) := by intro k; ring
  have e2 : ∀ k, -(factor fe3 k * a k / total fe3 o ^ 2) = (factor fe3 k * a k) * (-(1 / total fe3 o ^ 2)) := by intro k; ring
  simp only [e1, e2, ← sum_mul, ← sum_div, factor_sum]
  simp only [lin]
  ring

theorem oxides_bump (L : Fin nlc → Fin nc → ℝ) (m : Fin nlc → ℝ) (j : Fin nlc) (h : ℝ) (i : Fin nc) :
    oxides L (bump m j h) i = oxides L m i + L j i * h := by
  unfold oxides bump
  simp only [mul_add, sum_add_distrib, mul_ite, mul_zero, sum_ite_eq', mem_univ, if_true]

theorem total_bump (fe3 : Fin nc) (L : Fin nlc → Fin nc → ℝ) (m : Fin nlc → ℝ) (j : Fin nlc) (h : ℝ) :
    total fe3 (oxides L (bump m j h)) = total fe3 (oxides L m) + total fe3 (L j) * h := by
  unfold total
  simp only [oxides_bump, sum_add_distrib, ← sum_mul]
  ring

theorem lin_bump (fe2 fe3 : Fin nc) (coeff : Fin nc → ℝ) (L : Fin nlc → Fin nc → ℝ) (m : Fin nlc → ℝ) (j : Fin nlc) (h : ℝ) :
    lin fe2 fe3 coeff (oxides L (bump m j h)) = lin fe2 fe3 coeff (oxides L m) + lin fe2 fe3 coeff (L j) * h := by
  unfold lin
  simp only [oxides_bump, mul_add, sum_add_distrib, ← mul_assoc, ← sum_mul]
  ring

theorem line (a b : ℝ) : HasDerivAt (fun h : ℝ => a + b * h) b 0 := by
  simpa using ((hasDerivAt_id (0 : ℝ)).const_mul b).const_add a

theorem line_ne (a b : ℝ) (h : a ≠ 0) : ∀ᶠ x in nhds (0 : ℝ), a + b * x ≠ 0 := by
  have : ContinuousAt (fun x : ℝ => a + b * x) 0 := (line a b).continuousAt
  exact this.eventually_ne (by simpa using h)

/-- Near a composition with both iron oxides the returns of zero do not matter. -/
theorem guarded_near (fe2 fe3 : Fin nc) (L : Fin nlc → Fin nc → ℝ) (m : Fin nlc → ℝ) (j : Fin nlc)
    (hp : ¬ Absent fe2 fe3 (oxides L m)) :
    ∀ᶠ h in nhds (0 : ℝ), ∀ x, guarded fe2 fe3 (oxides L (bump m j h)) x = x := by
  unfold Absent at hp
  push Not at hp
  filter_upwards [line_ne _ (total fe3 (L j)) hp.1, line_ne _ (L j fe2) hp.2.1, line_ne _ (L j fe3) hp.2.2] with h h1 h2 h3 x
  unfold guarded
  rw [if_neg]
  unfold Absent
  rw [total_bump, oxides_bump, oxides_bump]
  tauto

theorem guarded_of (fe2 fe3 : Fin nc) (o : Fin nc → ℝ) (hp : ¬ Absent fe2 fe3 o) (x : ℝ) : guarded fe2 fe3 o x = x := by
  unfold guarded; rw [if_neg hp]

/-! ### C59 -/

/-- C59. The potential reported is RT ln fO2 at the log10 fO2 that the liquid's ferric/ferrous ratio is read as, always. -/
theorem C59_potential_is_RT_ln_fO2 (capped : Bool) (fe2 fe3 : Fin nc) (coeff : Fin nc → ℝ) (L : Fin nlc → Fin nc → ℝ) (t p : ℝ)
    (m : Fin nlc → ℝ) :
    mu capped fe2 fe3 coeff L t p m =
      R * t * Real.log 10 * readRedox capped fe2 fe3 coeff t p (fun i => ∑ j, L j i * m j) := by
  have ho : (fun i => ∑ j, L j i * m j) = oxides L m := rfl
  rw [ho]
  unfold mu readRedox guarded Absent
  set o := oxides L m
  have hs : (∑ i, o i) + o fe3 = total fe3 o := rfl
  simp only [hs]
  by_cases h23 : o fe2 = 0 ∨ o fe3 = 0
  · rw [if_pos (Or.inr h23), if_pos h23, mul_zero]
  · by_cases h0 : total fe3 o = 0
    · rw [if_pos (Or.inl h0), if_neg h23, if_pos h0, mul_zero]
    · rw [if_neg (by tauto), if_neg h23, if_neg h0]
      unfold temp
      have := cA_ne
      have hl : Real.log 10 ≠ 0 := (Real.log_pos (by norm_num)).ne'
      field_simp

/-- C59. After the redox state of a liquid with iron has been set for a log10 fO2, the potential is RT ln fO2 of that value. -/
theorem C59_potential_after_set (capped : Bool) (fe2 fe3 : Fin nc) (hne : fe2 ≠ fe3) (coeff : Fin nc → ℝ)
    (L : Fin nlc → Fin nc → ℝ) (t p l : ℝ) (o : Fin nc → ℝ) (m : Fin nlc → ℝ) (h : IronBearing fe2 fe3 o)
    (hm : (fun i => ∑ j, L j i * m j) = setRedox capped fe2 fe3 coeff t p l o) :
    mu capped fe2 fe3 coeff L t p m = R * t * Real.log 10 * l := by
  rw [C59_potential_is_RT_ln_fO2, hm, C51_read_after_set capped fe2 fe3 hne coeff t p l o h]

/-- C59. Derivatives in the moles of the liquid components. -/
theorem C59_composition_derivatives (capped : Bool) (fe2 fe3 : Fin nc) (hne : fe2 ≠ fe3) (coeff : Fin nc → ℝ)
    (L : Fin nlc → Fin nc → ℝ) (t p : ℝ) (m : Fin nlc → ℝ) (hp : ¬ Absent fe2 fe3 (oxides L m)) (i j : Fin nlc) :
    Partial (fun m => mu capped fe2 fe3 coeff L t p m) m i (dm fe2 fe3 coeff L t m i) ∧
    Partial (fun m => dm fe2 fe3 coeff L t m i) m j (d2m fe2 fe3 coeff L t m i j) := by
  have hp' := hp
  unfold Absent at hp'
  push Not at hp'
  obtain ⟨h0, h2, h3⟩ := hp'
  set o := oxides L m with ho
  have hA := cA_ne
  have z : ∀ a b : ℝ, a + b * 0 = a := by intro a b; ring
  constructor
  · unfold Partial
    have hf : (fun h => mu capped fe2 fe3 coeff L t p (bump m i h)) =ᶠ[nhds 0] fun h =>
        R * t * (Real.log ((o fe3 + L i fe3 * h) / (o fe2 + L i fe2 * h)) -
          (tpTerm capped t p + (lin fe2 fe3 coeff o + lin fe2 fe3 coeff (L i) * h) / (total fe3 o + total fe3 (L i) * h))) / cA := by
      filter_upwards [guarded_near fe2 fe3 L m i hp] with h hg
      unfold mu
      simp only [hg, temp_eq, oxides_bump, total_bump, lin_bump, ho]
    refine HasDerivAt.congr_of_eventuallyEq ?_ hf
    have d1 := (line (o fe3) (L i fe3)).div (line (o fe2) (L i fe2)) (by simpa using h2)
    have d2 := d1.log (by simp [h2, h3])
    have d3 := (line (lin fe2 fe3 coeff o) (lin fe2 fe3 coeff (L i))).div (line (total fe3 o) (total fe3 (L i))) (by simpa using h0)
    have d4 := ((d2.sub (d3.const_add (tpTerm capped t p))).const_mul (R * t)).div_const cA
    refine d4.congr_deriv ?_
    unfold dm
    rw [guarded_of _ _ _ hp, vTemp_sum _ _ hne]
    simp only [z, ← ho, Pi.div_apply, Pi.pow_apply]
    field_simp
    ring
  · unfold Partial
    have hf : (fun h => dm fe2 fe3 coeff L t (bump m j h) i) =ᶠ[nhds 0] fun h =>
        R * t / cA * (L i fe3 / (o fe3 + L j fe3 * h) - L i fe2 / (o fe2 + L j fe2 * h) -
          lin fe2 fe3 coeff (L i) / (total fe3 o + total fe3 (L j) * h) +
          (lin fe2 fe3 coeff o + lin fe2 fe3 coeff (L j) * h) * total fe3 (L i) / (total fe3 o + total fe3 (L j) * h) ^ 2) := by
      filter_upwards [guarded_near fe2 fe3 L m j hp] with h hg
      unfold dm
      simp only [hg, vTemp_sum _ _ hne, oxides_bump, total_bump, lin_bump, ho]
    refine HasDerivAt.congr_of_eventuallyEq ?_ hf
    have d1 := (hasDerivAt_const (0 : ℝ) (L i fe3)).div (line (o fe3) (L j fe3)) (by simpa using h3)
    have d2 := (hasDerivAt_const (0 : ℝ) (L i fe2)).div (line (o fe2) (L j fe2)) (by simpa using h2)
    have d3 := (hasDerivAt_const (0 : ℝ) (lin fe2 fe3 coeff (L i))).div (line (total fe3 o) (total fe3 (L j))) (by simpa using h0)
    have d4 := ((line (lin fe2 fe3 coeff o) (lin fe2 fe3 coeff (L j))).mul_const (total fe3 (L i))).div
      ((line (total fe3 o) (total fe3 (L j))).pow 2) (by simpa using h0)
    refine ((((d1.sub d2).sub d3).add d4).const_mul (R * t / cA)).congr_deriv ?_
    unfold d2m
    rw [guarded_of _ _ _ hp, mTemp_sum _ _ hne]
    simp only [z, ← ho, Pi.div_apply, Pi.pow_apply]
    field_simp
    ring

/-- Pressure entering the terms that stop at 50000 bar, and the term that goes on. -/
def pEff (capped : Bool) (p : ℝ) : ℝ := if capped = false ∨ p < 50000 then p else 50000

/-- See `pEff`. -/
def pOver (capped : Bool) (p : ℝ) : ℝ :=
  if capped = false ∨ p < 50000 then 0 else cA * Real.log 10 * (608.966 * p / 10000 - 608.966 * 5)

/-- Coefficient of 1/T. -/
def aT (capped : Bool) (p : ℝ) : ℝ :=
  cB - cE * cT0 + cF * pEff capped p - cG * cT0 * pEff capped p + cH * pEff capped p ^ 2 - pOver capped p

theorem tpTerm_form (capped : Bool) (t p : ℝ) (ht : t ≠ 0) :
    tpTerm capped t p = aT capped p / t + (cC + cE + cG * pEff capped p) - cE * Real.log (t / cT0) := by
  unfold tpTerm aT pEff pOver
  by_cases h : capped = false ∨ p < 50000
  · simp only [if_pos h]; field_simp; ring
  · simp only [if_neg h]; field_simp; ring

theorem cT0_ne : cT0 ≠ 0 := by unfold cT0; norm_num

/-- C59. Derivatives in temperature, at every temperature but zero, every composition and pressure. -/
theorem C59_temperature_derivatives (capped : Bool) (fe2 fe3 : Fin nc) (coeff : Fin nc → ℝ)
    (L : Fin nlc → Fin nc → ℝ) (t p : ℝ) (m : Fin nlc → ℝ) (ht : t ≠ 0) :
    HasDerivAt (fun t => mu capped fe2 fe3 coeff L t p m) (dt capped fe2 fe3 coeff L t p m) t ∧
    HasDerivAt (fun t => dt capped fe2 fe3 coeff L t p m) (d2t2 capped fe2 fe3 L t p m) t ∧
    ∀ i, HasDerivAt (fun t => dm fe2 fe3 coeff L t m i) (d2mt fe2 fe3 coeff L m i) t := by
  have hA := cA_ne
  have hT := cT0_ne
  by_cases hp : Absent fe2 fe3 (oxides L m)
  · have z : ∀ x, guarded fe2 fe3 (oxides L m) x = 0 := fun x => by unfold guarded; rw [if_pos hp]
    simp only [mu, dt, d2t2, dm, d2mt, z]
    exact ⟨hasDerivAt_const _ _, hasDerivAt_const _ _, fun _ => hasDerivAt_const _ _⟩
  · have z : ∀ x, guarded fe2 fe3 (oxides L m) x = x := guarded_of _ _ _ hp
    simp only [mu, dt, d2t2, dm, d2mt, z, temp_eq]
    set X := Real.log (oxides L m fe3 / oxides L m fe2)
    set Y := lin fe2 fe3 coeff (oxides L m) / total fe3 (oxides L m)
    have hne : ∀ᶠ x in nhds t, x ≠ 0 := continuousAt_id.eventually_ne ht
    have dlog : HasDerivAt (fun x : ℝ => Real.log (x / cT0)) (1 / t) t := by
      have := ((hasDerivAt_id t).div_const cT0).log (by simpa using ⟨ht, hT⟩)
      refine this.congr_deriv ?_
      simp only [id]
      field_simp
    have dinv : ∀ a : ℝ, HasDerivAt (fun x : ℝ => a / x) (-a / t ^ 2) t := by
      intro a
      refine ((hasDerivAt_const t a).div (hasDerivAt_id t) ht).congr_deriv ?_
      simp [id]
    refine ⟨?_, ?_, ?_⟩
    · have hf : (fun x => R * x * (X - (tpTerm capped x p + Y)) / cA) =ᶠ[nhds t] fun x =>
          R * x * (X - (aT capped p / x + (cC + cE + cG * pEff capped p) - cE * Real.log (x / cT0) + Y)) / cA := by
        filter_upwards [hne] with x hx
        rw [tpTerm_form _ _ _ hx]
      refine HasDerivAt.congr_of_eventuallyEq ?_ hf
      have d1 := (((dinv (aT capped p)).add_const (cC + cE + cG * pEff capped p)).sub (dlog.const_mul cE)).add_const Y
      have d2 := ((((hasDerivAt_id t).const_mul R).mul (d1.const_sub X))).div_const cA
      refine d2.congr_deriv ?_
      rw [tpTerm_form _ _ _ ht]
      simp only [id, aT, pEff, pOver]
      by_cases h : capped = false ∨ p < 50000
      · simp only [if_pos h, Pi.sub_apply]; field_simp; ring
      · simp only [if_neg h, Pi.sub_apply]; field_simp; ring
    · have hf : (fun x => R * (X - (tpTerm capped x p + Y)) / cA + R * x * (cB / x ^ 2 - cE * (cT0 / x - 1) * (1 / x)) / cA +
          if capped = false ∨ p < 50000 then
            R * x * (cF * p / x ^ 2 - cG * (cT0 / x) * (p / x) + cH * (p / x) ^ 2) / cA
          else
            R * x * (cF * 50000 / x ^ 2 - cG * (cT0 / x) * (50000 / x) + cH * (50000 / x) ^ 2 -
              cA * Real.log 10 * (608.966 * p / 10000 - 608.966 * 5) / x ^ 2) / cA) =ᶠ[nhds t] fun x =>
          R / cA * (X - Y - (cC + cE + cG * pEff capped p) + cE) + R * cE / cA * Real.log (x / cT0) := by
        filter_upwards [hne] with x hx
        rw [tpTerm_form _ _ _ hx]
        simp only [aT, pEff, pOver]
        by_cases h : capped = false ∨ p < 50000
        · simp only [if_pos h]; field_simp; ring
        · simp only [if_neg h]; field_simp; ring
      refine HasDerivAt.congr_of_eventuallyEq ?_ hf
      refine ((dlog.const_mul (R * cE / cA)).const_add _).congr_deriv ?_
      cases capped
      · simp only [Bool.false_eq_true, if_false]; field_simp; ring
      · simp only [if_true]; field_simp; ring
    · intro i
      have e : (fun x => ∑ j, vTemp fe2 fe3 coeff (oxides L m) j * (R * x / cA) * L i j) =
          fun x => (∑ j, vTemp fe2 fe3 coeff (oxides L m) j * (R / cA) * L i j) * x := by
        funext x
        rw [sum_mul]
        exact sum_congr rfl fun j _ => by ring
      rw [e]
      simpa using (hasDerivAt_id t).const_mul (∑ j, vTemp fe2 fe3 coeff (oxides L m) j * (R / cA) * L i j)

theorem tpTerm_dp_low (capped : Bool) (t p : ℝ) (h : capped = false ∨ p < 50000) :
    HasDerivAt (fun p => tpTerm capped t p) (cF / t + cG * (t - cT0) / t + 2 * cH * p / t) p := by
  have hf : (fun p => tpTerm capped t p) =ᶠ[nhds p] fun p =>
      cB / t + cC + cE * (1 - cT0 / t - Real.log (t / cT0)) + cF * p / t + cG * (t - cT0) * p / t + cH * (p * p) / t := by
    have : ∀ᶠ x in nhds p, capped = false ∨ x < 50000 := by
      rcases h with h | h
      · exact Filter.Eventually.of_forall fun _ => Or.inl h
      · filter_upwards [gt_mem_nhds h] with x hx using Or.inr hx
    filter_upwards [this] with x hx
    unfold tpTerm
    rw [if_pos hx]
  refine HasDerivAt.congr_of_eventuallyEq ?_ hf
  have i := hasDerivAt_id p
  have := ((((i.const_mul cF).div_const t).const_add (cB / t + cC + cE * (1 - cT0 / t - Real.log (t / cT0)))).add
    ((i.const_mul (cG * (t - cT0))).div_const t)).add (((i.mul i).const_mul cH).div_const t)
  refine this.congr_deriv ?_
  simp only [id]
  ring

theorem tpTerm_dp_high (t p : ℝ) (h : 50000 < p) :
    HasDerivAt (fun p => tpTerm true t p) (-(cA * Real.log 10 * 608.966 / 10000 / t)) p := by
  have hf : (fun p => tpTerm true t p) =ᶠ[nhds p] fun p =>
      cB / t + cC + cE * (1 - cT0 / t - Real.log (t / cT0)) + cF * 50000 / t + cG * (t - cT0) * 50000 / t +
      cH * (50000 * 50000) / t - cA * Real.log 10 * (608.966 * p / 10000 - 608.966 * 5) / t := by
    filter_upwards [lt_mem_nhds h] with x hx
    unfold tpTerm
    rw [if_neg (by simp; linarith)]
  refine HasDerivAt.congr_of_eventuallyEq ?_ hf
  have i := hasDerivAt_id p
  have := (((((i.const_mul 608.966).div_const 10000).sub_const (608.966 * 5)).const_mul (cA * Real.log 10)).div_const t).const_sub
    (cB / t + cC + cE * (1 - cT0 / t - Real.log (t / cT0)) + cF * 50000 / t + cG * (t - cT0) * 50000 / t +
      cH * (50000 * 50000) / t)
  refine this.congr_deriv ?_
  ring

/-- C59. Derivatives in pressure, except (in the versions with the high-pressure branch) at 50000 bar, and the mixed derivative
both ways. -/
theorem C59_pressure_derivatives (capped : Bool) (fe2 fe3 : Fin nc) (coeff : Fin nc → ℝ)
    (L : Fin nlc → Fin nc → ℝ) (t p : ℝ) (m : Fin nlc → ℝ) (ht : t ≠ 0) (hc : capped = true → p ≠ 50000) :
    HasDerivAt (fun p => mu capped fe2 fe3 coeff L t p m) (dp capped fe2 fe3 L t p m) p ∧
    HasDerivAt (fun p => dp capped fe2 fe3 L t p m) (d2p2 capped fe2 fe3 L t p m) p ∧
    HasDerivAt (fun p => dt capped fe2 fe3 coeff L t p m) (d2tp capped fe2 fe3 L t p m) p ∧
    HasDerivAt (fun t => dp capped fe2 fe3 L t p m) (d2tp capped fe2 fe3 L t p m) t ∧
    ∀ i, HasDerivAt (fun _ : ℝ => dm fe2 fe3 coeff L t m i) d2mp p := by
  have hA := cA_ne
  by_cases hp : Absent fe2 fe3 (oxides L m)
  · have z : ∀ x, guarded fe2 fe3 (oxides L m) x = 0 := fun x => by unfold guarded; rw [if_pos hp]
    simp only [mu, dt, dp, d2p2, d2tp, dm, d2mp, z]
    exact ⟨hasDerivAt_const _ _, hasDerivAt_const _ _, hasDerivAt_const _ _, hasDerivAt_const _ _, fun _ => hasDerivAt_const _ _⟩
  · have z : ∀ x, guarded fe2 fe3 (oxides L m) x = x := guarded_of _ _ _ hp
    simp only [mu, dt, dp, d2p2, d2tp, dm, d2mp, z, temp_eq]
    set X := Real.log (oxides L m fe3 / oxides L m fe2)
    set Y := lin fe2 fe3 coeff (oxides L m) / total fe3 (oxides L m)
    have hne : ∀ᶠ x in nhds t, x ≠ 0 := continuousAt_id.eventually_ne ht
    have i := hasDerivAt_id p
    by_cases h : capped = false ∨ p < 50000
    · simp only [if_pos h]
      have near : ∀ᶠ x in nhds p, capped = false ∨ x < 50000 := by
        rcases h with h | h
        · exact Filter.Eventually.of_forall fun _ => Or.inl h
        · filter_upwards [gt_mem_nhds h] with x hx using Or.inr hx
      have dtp := tpTerm_dp_low capped t p h
      refine ⟨?_, ?_, ?_, ?_, fun _ => hasDerivAt_const _ _⟩
      · refine ((((dtp.add_const Y).const_sub X).const_mul (R * t)).div_const cA).congr_deriv ?_
        ring
      · have hf : (fun p => if capped = false ∨ p < 50000 then R * t * (-cF / t - cG * (t - cT0) / t - 2 * cH * p / t) / cA
            else R * t * (cA * Real.log 10 * 608.966 / 10000 / t) / cA) =ᶠ[nhds p] fun p =>
            R * t * (-cF / t - cG * (t - cT0) / t - 2 * cH * p / t) / cA := by
          filter_upwards [near] with x hx
          rw [if_pos hx]
        refine HasDerivAt.congr_of_eventuallyEq ?_ hf
        refine (((((i.const_mul (2 * cH)).div_const t).const_sub (-cF / t - cG * (t - cT0) / t)).const_mul (R * t)).div_const
          cA).congr_deriv ?_
        ring
      · have hf : (fun p => R * (X - (tpTerm capped t p + Y)) / cA + R * t * (cB / t ^ 2 - cE * (cT0 / t - 1) * (1 / t)) / cA +
            if capped = false ∨ p < 50000 then
              R * t * (cF * p / t ^ 2 - cG * (cT0 / t) * (p / t) + cH * (p / t) ^ 2) / cA
            else
              R * t * (cF * 50000 / t ^ 2 - cG * (cT0 / t) * (50000 / t) + cH * (50000 / t) ^ 2 -
                cA * Real.log 10 * (608.966 * p / 10000 - 608.966 * 5) / t ^ 2) / cA) =ᶠ[nhds p] fun p =>
            R / cA * (X - Y - tpTerm capped t p) + (R * t * (cB / t ^ 2 - cE * (cT0 / t - 1) * (1 / t)) / cA +
              (R / cA / t * (cF - cG * cT0) * p + R / cA / t * cH * (p * p))) := by
          filter_upwards [near] with x hx
          simp only [if_pos hx]
          field_simp
          ring
        refine HasDerivAt.congr_of_eventuallyEq ?_ hf
        have := ((dtp.const_sub (X - Y)).const_mul (R / cA)).add
          (((i.const_mul (R / cA / t * (cF - cG * cT0))).add ((i.mul i).const_mul (R / cA / t * cH))).const_add
            (R * t * (cB / t ^ 2 - cE * (cT0 / t - 1) * (1 / t)) / cA))
        refine this.congr_deriv ?_
        simp only [id]
        field_simp
        ring
      · have hf : (fun x => R * x * (-cF / x - cG * (x - cT0) / x - 2 * cH * p / x) / cA) =ᶠ[nhds t] fun x =>
            R / cA * (-cF + cG * cT0 - 2 * cH * p) - R / cA * cG * x := by
          filter_upwards [hne] with x hx
          field_simp
          ring
        refine HasDerivAt.congr_of_eventuallyEq ?_ hf
        refine (((hasDerivAt_id t).const_mul (R / cA * cG)).const_sub _).congr_deriv ?_
        field_simp
        ring
    · simp only [if_neg h]
      push Not at h
      have hcap : capped = true := by simpa using h.1
      subst hcap
      have hlt : 50000 < p := lt_of_le_of_ne h.2 (Ne.symm (hc rfl))
      have near : ∀ᶠ x in nhds p, ¬ (true = false ∨ x < 50000) := by
        filter_upwards [lt_mem_nhds hlt] with x hx
        simp
        linarith
      have dtp := tpTerm_dp_high t p hlt
      refine ⟨?_, ?_, ?_, ?_, fun _ => hasDerivAt_const _ _⟩
      · refine ((((dtp.add_const Y).const_sub X).const_mul (R * t)).div_const cA).congr_deriv ?_
        ring
      · have hf : (fun p => if true = false ∨ p < 50000 then R * t * (-cF / t - cG * (t - cT0) / t - 2 * cH * p / t) / cA
            else R * t * (cA * Real.log 10 * 608.966 / 10000 / t) / cA) =ᶠ[nhds p] fun _ =>
            R * t * (cA * Real.log 10 * 608.966 / 10000 / t) / cA := by
          filter_upwards [near] with x hx
          rw [if_neg hx]
        exact HasDerivAt.congr_of_eventuallyEq (hasDerivAt_const _ _) hf
      · have hf : (fun p => R * (X - (tpTerm true t p + Y)) / cA + R * t * (cB / t ^ 2 - cE * (cT0 / t - 1) * (1 / t)) / cA +
            if true = false ∨ p < 50000 then
              R * t * (cF * p / t ^ 2 - cG * (cT0 / t) * (p / t) + cH * (p / t) ^ 2) / cA
            else
              R * t * (cF * 50000 / t ^ 2 - cG * (cT0 / t) * (50000 / t) + cH * (50000 / t) ^ 2 -
                cA * Real.log 10 * (608.966 * p / 10000 - 608.966 * 5) / t ^ 2) / cA) =ᶠ[nhds p] fun p =>
            R / cA * (X - Y - tpTerm true t p) + ((R * t * (cB / t ^ 2 - cE * (cT0 / t - 1) * (1 / t)) / cA +
              R * t * (cF * 50000 / t ^ 2 - cG * (cT0 / t) * (50000 / t) + cH * (50000 / t) ^ 2) / cA +
              R / t * (Real.log 10 * 608.966 * 5)) - R / t * (Real.log 10 * 608.966 / 10000) * p) := by
          filter_upwards [near] with x hx
          simp only [if_neg hx]
          field_simp
          ring
        refine HasDerivAt.congr_of_eventuallyEq ?_ hf
        have := ((dtp.const_sub (X - Y)).const_mul (R / cA)).add ((i.const_mul (R / t * (Real.log 10 * 608.966 / 10000))).const_sub
          (R * t * (cB / t ^ 2 - cE * (cT0 / t - 1) * (1 / t)) / cA +
              R * t * (cF * 50000 / t ^ 2 - cG * (cT0 / t) * (50000 / t) + cH * (50000 / t) ^ 2) / cA +
              R / t * (Real.log 10 * 608.966 * 5)))
        refine this.congr_deriv ?_
        field_simp
      · have hf : (fun x => R * x * (cA * Real.log 10 * 608.966 / 10000 / x) / cA) =ᶠ[nhds t] fun _ =>
            R * (Real.log 10 * 608.966 / 10000) := by
          filter_upwards [hne] with x hx
          field_simp
        refine HasDerivAt.congr_of_eventuallyEq ?_ hf
        refine (hasDerivAt_const _ _).congr_deriv ?_
        field_simp
        ring

/-- C59. With neither or only one of the iron oxides everything reported is zero. -/
theorem C59_without_iron (capped : Bool) (fe2 fe3 : Fin nc) (coeff : Fin nc → ℝ)
    (L : Fin nlc → Fin nc → ℝ) (t p : ℝ) (m : Fin nlc → ℝ) (h : ∑ j, L j fe2 * m j = 0 ∨ ∑ j, L j fe3 * m j = 0) :
    mu capped fe2 fe3 coeff L t p m = 0 ∧ (∀ i, dm fe2 fe3 coeff L t m i = 0) ∧
    dt capped fe2 fe3 coeff L t p m = 0 ∧ dp capped fe2 fe3 L t p m = 0 := by
  have hp : Absent fe2 fe3 (oxides L m) := Or.inr h
  have z : ∀ x, guarded fe2 fe3 (oxides L m) x = 0 := fun x => by unfold guarded; rw [if_pos hp]
  simp only [mu, dt, dp, dm, z]
  exact ⟨trivial, fun _ => trivial, trivial, trivial⟩

/-! ### Concrete case -/

/-- A liquid of three components SiO2, Fe2SiO4, Fe2O3 in which both iron oxides are present. -/
example : ¬ Absent (nc := 3) 1 2 (oxides (nlc := 3) ![![1, 0, 0], ![1, 2, 0], ![0, 0, 1]] ![5, 1, 1 / 10]) := by
  have e : oxides (nlc := 3) (nc := 3) ![![1, 0, 0], ![1, 2, 0], ![0, 0, 1]] ![5, 1, 1 / 10] = ![6, 2, 1 / 10] := by
    funext i
    fin_cases i <;> simp [oxides, Fin.sum_univ_three] <;> norm_num
  rw [e]
  unfold Absent total
  simp [Fin.sum_univ_three]
  norm_num

end

end Magma.Thermo.MuO2
