import Verif.Prelude
import Mathlib.Analysis.SpecialFunctions.Log.Basic

/-!
Model of the ferric/ferrous calculation of the liquid: `conLiq`, `conLiq_CO2`, `conLiq_CO2_H2O`
(/repo/sources/liquid.c 7899-8008, liquid_CO2.c and liquid_CO2_H2O.c 2746-2850, identical text) and `conLiq_v34`
(/repo/sources/liquid_v34.c 136-204), with `USE_KRESS_CARMICHAEL_FO2` as defined in those files.

Simplifications: `double` is the real numbers; the decimal constants are exact. The look-up of the positions of
FeO and Fe2O3 is represented by the two indices `fe2`, `fe3`.
-/

namespace Magma.Thermo.Redox

open Finset

noncomputable section

variable {nc : ℕ}

/-- liquid.c 7918-7925, liquid_v34.c 146-153. -/
def cT0 : ℝ := 1673.15
/-- liquid.c 7919. -/
def cA : ℝ := 0.196
/-- liquid.c 7920. -/
def cB : ℝ := 1.1492e4
/-- liquid.c 7921. -/
def cC : ℝ := -6.675
/-- liquid.c 7922. -/
def cE : ℝ := -3.364
/-- liquid.c 7923. -/
def cF : ℝ := -7.01e-7 * 1.0e5
/-- liquid.c 7924. -/
def cG : ℝ := -1.54e-10 * 1.0e5
/-- liquid.c 7925. -/
def cH : ℝ := 3.85e-17 * 1.0e5 * 1.0e5

/-- The T and P terms common to both directions. `capped` is true for `conLiq`, `conLiq_CO2` and
`conLiq_CO2_H2O`, which treat pressures of 50000 bars and more separately (liquid.c 7959-7963 and 8001-8003), and
false for `conLiq_v34` (liquid_v34.c 181-182 and 198-199). -/
def tpTerm (capped : Bool) (t p : ℝ) : ℝ :=
  if capped = false ∨ p < 50000 then
    cB / t + cC + cE * (1 - cT0 / t - Real.log (t / cT0)) + cF * p / t + cG * (t - cT0) * p / t +
      cH * (p * p) / t
  else
    cB / t + cC + cE * (1 - cT0 / t - Real.log (t / cT0)) + cF * 50000 / t + cG * (t - cT0) * 50000 / t +
      cH * (50000 * 50000) / t - cA * Real.log 10 * (608.966 * p / 10000 - 608.966 * 5) / t

/-- All iron as FeO: liquid.c 7951-7952, liquid_v34.c 174-175. -/
def allFeO (fe2 fe3 : Fin nc) (o : Fin nc → ℝ) : Fin nc → ℝ :=
  Function.update (Function.update o fe2 (o fe2 + 2 * o fe3)) fe3 0

/-- liquid.c 7944-7969 (`inpMask == FIRST | SEVENTH`, `outMask == FIRST`), liquid_v34.c 167-188: set the redox
state for `logfo2`. -/
def setRedox (capped : Bool) (fe2 fe3 : Fin nc) (coeff : Fin nc → ℝ) (t p logfo2 : ℝ) (o : Fin nc → ℝ) :
    Fin nc → ℝ :=
  let o1 := allFeO fe2 fe3 o
  if o1 fe2 = 0 then o1
  else
    let sum := ∑ i, o1 i
    if sum = 0 then o1
    else
      let temp := Real.exp (cA * Real.log 10 * logfo2 + tpTerm capped t p + ∑ i, coeff i * o1 i / sum)
      let o2 := Function.update o1 fe3 (temp * o1 fe2 / (1 + 2 * temp))
      Function.update o2 fe2 (o2 fe2 - 2 * o2 fe3)

/-- liquid.c 7988-8007 (`inpMask == FIRST`, `outMask == SEVENTH`), liquid_v34.c 190-204: log10 fO2 from the
composition. -/
def readRedox (capped : Bool) (fe2 fe3 : Fin nc) (coeff : Fin nc → ℝ) (t p : ℝ) (o : Fin nc → ℝ) : ℝ :=
  if o fe2 = 0 ∨ o fe3 = 0 then 0
  else
    let sum := (∑ i, o i) + o fe3
    if sum = 0 then 0
    else
      let temp := tpTerm capped t p + ∑ i, coeff i * o i / sum +
        (2 * coeff fe2 * o fe3 / sum - coeff fe3 * o fe3 / sum)
      (Real.log (o fe3 / o fe2) - temp) / (cA * Real.log 10)

/-! ### Specification -/

/-- Total iron as FeO. -/
def iron (fe2 fe3 : Fin nc) (o : Fin nc → ℝ) : ℝ := o fe2 + 2 * o fe3

/-- T and P terms of Kress and Carmichael (1991), equation 7, as published: T in kelvin, `P` in pascal. -/
def published (T P : ℝ) : ℝ :=
  11492 / T - 6.675 - 3.364 * (1 - 1673.15 / T - Real.log (T / 1673.15)) - 7.01 / 10 ^ 7 * (P / T) -
    1.54 / 10 ^ 10 * ((T - 1673.15) * P / T) + 3.85 / 10 ^ 17 * (P ^ 2 / T)

/-- The Kress–Carmichael relation between the ferric/ferrous ratio and log10 fO2, with mole fractions of the
composition in which all iron is FeO (which is how the coefficients are defined). `p` in bar. With `capped` the pressure
terms stop at 5 GPa, from where on log10 fO2 at given ferric/ferrous ratio rises by 608.966/T per GPa/10. -/
def KressCarmichael (capped : Bool) (fe2 fe3 : Fin nc) (coeff : Fin nc → ℝ) (t p logfo2 : ℝ)
    (o : Fin nc → ℝ) : Prop :=
  Real.log (o fe3 / o fe2) =
    0.196 * (Real.log 10 * (logfo2 - if capped ∧ 50000 < p then 608.966 / t * ((p - 50000) / 10000) else 0)) +
    published t (100000 * if capped then min p 50000 else p) +
    ∑ i, coeff i * ((if i = fe2 then iron fe2 fe3 o else if i = fe3 then 0 else o i) / (∑ j, o j + o fe3))

/-! ### Lemmas -/

theorem allFeO_fe2 (fe2 fe3 : Fin nc) (hne : fe2 ≠ fe3) (o : Fin nc → ℝ) :
    allFeO fe2 fe3 o fe2 = iron fe2 fe3 o := by
  simp [allFeO, iron, Function.update_apply, hne]

theorem allFeO_fe3 (fe2 fe3 : Fin nc) (o : Fin nc → ℝ) : allFeO fe2 fe3 o fe3 = 0 := by
  simp [allFeO]

theorem allFeO_other (fe2 fe3 : Fin nc) (o : Fin nc → ℝ) (i : Fin nc) (h2 : i ≠ fe2) (h3 : i ≠ fe3) :
    allFeO fe2 fe3 o i = o i := by
  simp [allFeO, Function.update_apply, h2, h3]

theorem tpTerm_eq (capped : Bool) (t p : ℝ) : tpTerm capped t p =
    published t (100000 * if capped then min p 50000 else p) -
      0.196 * (Real.log 10 * if capped ∧ 50000 < p then 608.966 / t * ((p - 50000) / 10000) else 0) := by
  unfold tpTerm published cA cB cC cE cF cG cH cT0
  cases capped
  · simp; ring
  · simp only [Bool.true_eq_false, false_or, if_true, true_and]
    by_cases h : p < 50000
    · rw [if_pos h, min_eq_left h.le, if_neg (by linarith)]; ring
    · push Not at h
      rw [if_neg (not_lt.mpr h), min_eq_right h]
      rcases h.lt_or_eq with h' | h'
      · rw [if_pos h']; ring
      · subst h'; rw [if_neg (lt_irrefl _)]; ring

theorem sum_split (fe2 fe3 : Fin nc) (hne : fe2 ≠ fe3) (f : Fin nc → ℝ) :
    ∑ i, f i = f fe2 + f fe3 + ∑ i ∈ (univ.erase fe2).erase fe3, f i := by
  rw [← add_sum_erase univ f (mem_univ fe2),
    ← add_sum_erase (univ.erase fe2) f (mem_erase.mpr ⟨hne.symm, mem_univ fe3⟩)]
  ring

theorem allFeO_congr (fe2 fe3 : Fin nc) (o o' : Fin nc → ℝ) (hi : iron fe2 fe3 o = iron fe2 fe3 o')
    (ho : ∀ i, i ≠ fe2 → i ≠ fe3 → o i = o' i) : allFeO fe2 fe3 o = allFeO fe2 fe3 o' := by
  funext i
  by_cases h3 : i = fe3
  · subst h3; simp [allFeO_fe3]
  · by_cases h2 : i = fe2
    · subst h2; rw [allFeO_fe2 _ _ h3, allFeO_fe2 _ _ h3, hi]
    · rw [allFeO_other _ _ _ _ h2 h3, allFeO_other _ _ _ _ h2 h3, ho i h2 h3]

/-- The composition-weighted sums of `conLiq`'s second direction equal those over the all-FeO composition. -/
theorem read_sums (fe2 fe3 : Fin nc) (hne : fe2 ≠ fe3) (coeff o : Fin nc → ℝ) :
    (∑ i, o i) + o fe3 = ∑ i, allFeO fe2 fe3 o i ∧
    ∀ s : ℝ, ∑ i, coeff i * o i / s + (2 * coeff fe2 * o fe3 / s - coeff fe3 * o fe3 / s) =
      ∑ i, coeff i * (allFeO fe2 fe3 o i / s) := by
  have ho : ∀ f : Fin nc → ℝ → ℝ, ∑ i ∈ (univ.erase fe2).erase fe3, f i (allFeO fe2 fe3 o i) =
      ∑ i ∈ (univ.erase fe2).erase fe3, f i (o i) := by
    intro f
    refine sum_congr rfl fun i hi => ?_
    simp only [mem_erase] at hi
    rw [allFeO_other _ _ _ _ hi.2.1 hi.1]
  constructor
  · rw [sum_split fe2 fe3 hne, sum_split fe2 fe3 hne (allFeO fe2 fe3 o), ho fun _ x => x,
      allFeO_fe2 _ _ hne, allFeO_fe3, iron]
    ring
  · intro s
    rw [sum_split fe2 fe3 hne, sum_split fe2 fe3 hne (fun i => coeff i * (allFeO fe2 fe3 o i / s)),
      ho fun i x => coeff i * (x / s), allFeO_fe2 _ _ hne, allFeO_fe3, iron]
    simp only [mul_div_assoc]
    ring

/-- The relation in the form in which the code computes it. -/
theorem KressCarmichael_iff (capped : Bool) (fe2 fe3 : Fin nc) (hne : fe2 ≠ fe3) (coeff : Fin nc → ℝ) (t p l : ℝ)
    (o : Fin nc → ℝ) : KressCarmichael capped fe2 fe3 coeff t p l o ↔
    Real.log (o fe3 / o fe2) = cA * Real.log 10 * l + tpTerm capped t p +
      ∑ i, coeff i * (allFeO fe2 fe3 o i / ∑ j, allFeO fe2 fe3 o j) := by
  unfold KressCarmichael
  have e : ∀ i, (if i = fe2 then iron fe2 fe3 o else if i = fe3 then 0 else o i) = allFeO fe2 fe3 o i := by
    intro i
    by_cases h2 : i = fe2
    · rw [if_pos h2, h2, allFeO_fe2 _ _ hne]
    · by_cases h3 : i = fe3
      · rw [if_neg h2, if_pos h3, h3, allFeO_fe3]
      · rw [if_neg h2, if_neg h3, allFeO_other _ _ _ _ h2 h3]
  simp only [e, (read_sums fe2 fe3 hne coeff o).1, tpTerm_eq, cA]
  generalize (if capped = true ∧ 50000 < p then 608.966 / t * ((p - 50000) / 10000) else 0 : ℝ) = w
  constructor <;> intro h <;> rw [h] <;> ring

/-- What `setRedox` does when the liquid contains iron. -/
theorem setRedox_eq (capped : Bool) (fe2 fe3 : Fin nc) (hne : fe2 ≠ fe3) (coeff : Fin nc → ℝ)
    (t p logfo2 : ℝ) (o : Fin nc → ℝ) (hi : iron fe2 fe3 o ≠ 0) (hs : ∑ i, allFeO fe2 fe3 o i ≠ 0) :
    ∃ k, k = Real.exp (cA * Real.log 10 * logfo2 + tpTerm capped t p +
        ∑ i, coeff i * (allFeO fe2 fe3 o i / ∑ j, allFeO fe2 fe3 o j)) ∧
      setRedox capped fe2 fe3 coeff t p logfo2 o fe3 = k * iron fe2 fe3 o / (1 + 2 * k) ∧
      setRedox capped fe2 fe3 coeff t p logfo2 o fe2 = iron fe2 fe3 o / (1 + 2 * k) ∧
      ∀ i, i ≠ fe2 → i ≠ fe3 → setRedox capped fe2 fe3 coeff t p logfo2 o i = o i := by
  refine ⟨_, rfl, ?_⟩
  unfold setRedox
  simp only [allFeO_fe2 _ _ hne, if_neg hi, if_neg hs, ← mul_div_assoc]
  set k := Real.exp _
  have hk : 0 < k := Real.exp_pos _
  have hk' : 1 + 2 * k ≠ 0 := by positivity
  refine ⟨by simp [Function.update_apply, hne.symm], ?_, ?_⟩
  · simp only [Function.update_apply, hne, hne.symm, if_true, if_false, allFeO_fe2 _ _ hne]
    field_simp
    ring
  · intro i h2 h3
    simp [Function.update_apply, h2, h3, allFeO_other]

/-! ### Theorems -/

/-- **C51.** Total iron and every other oxide are unchanged by setting the redox state, whatever the
composition. -/
theorem C51_iron_conserved (capped : Bool) (fe2 fe3 : Fin nc) (hne : fe2 ≠ fe3) (coeff : Fin nc → ℝ)
    (t p logfo2 : ℝ) (o : Fin nc → ℝ) :
    iron fe2 fe3 (setRedox capped fe2 fe3 coeff t p logfo2 o) = iron fe2 fe3 o ∧
    ∀ i, i ≠ fe2 → i ≠ fe3 → setRedox capped fe2 fe3 coeff t p logfo2 o i = o i := by
  by_cases h : iron fe2 fe3 o = 0 ∨ ∑ i, allFeO fe2 fe3 o i = 0
  · have e : setRedox capped fe2 fe3 coeff t p logfo2 o = allFeO fe2 fe3 o := by
      unfold setRedox
      rcases h with h | h
      · simp only [allFeO_fe2 _ _ hne, h, if_true]
      · simp only [h, if_true, ite_self]
    rw [e]
    refine ⟨?_, fun i => allFeO_other fe2 fe3 o i⟩
    rw [iron, allFeO_fe2 _ _ hne, allFeO_fe3]
    ring
  · push Not at h
    obtain ⟨k, hk, h3, h2, ho⟩ := setRedox_eq capped fe2 fe3 hne coeff t p logfo2 o h.1 h.2
    have hk0 : 0 < k := hk ▸ Real.exp_pos _
    refine ⟨?_, ho⟩
    rw [iron, h2, h3]
    have : 1 + 2 * k ≠ 0 := by positivity
    field_simp

/-- A liquid: no negative amounts, and some iron. -/
def IronBearing (fe2 fe3 : Fin nc) (o : Fin nc → ℝ) : Prop := (∀ i, 0 ≤ o i) ∧ 0 < iron fe2 fe3 o

theorem IronBearing.sum_pos {fe2 fe3 : Fin nc} (hne : fe2 ≠ fe3) {o : Fin nc → ℝ}
    (h : IronBearing fe2 fe3 o) : 0 < ∑ i, allFeO fe2 fe3 o i := by
  rw [sum_split fe2 fe3 hne, allFeO_fe2 _ _ hne, allFeO_fe3]
  have : 0 ≤ ∑ i ∈ (univ.erase fe2).erase fe3, allFeO fe2 fe3 o i := by
    refine sum_nonneg fun i hi => ?_
    simp only [mem_erase] at hi
    rw [allFeO_other _ _ _ _ hi.2.1 hi.1]
    exact h.1 i
  linarith [h.2]

/-- **C51.** After setting the redox state of an iron-bearing liquid both iron oxides are positive, no amount is
negative and the Kress–Carmichael relation holds for the requested log10 fO2. -/
theorem C51_set_satisfies_relation (capped : Bool) (fe2 fe3 : Fin nc) (hne : fe2 ≠ fe3) (coeff : Fin nc → ℝ)
    (t p logfo2 : ℝ) (o : Fin nc → ℝ) (h : IronBearing fe2 fe3 o) :
    let o' := setRedox capped fe2 fe3 coeff t p logfo2 o
    0 < o' fe2 ∧ 0 < o' fe3 ∧ (∀ i, 0 ≤ o' i) ∧
      KressCarmichael capped fe2 fe3 coeff t p logfo2 o' := by
  intro o'
  obtain ⟨k, hk, h3, h2, ho⟩ := setRedox_eq capped fe2 fe3 hne coeff t p logfo2 o h.2.ne' (h.sum_pos hne).ne'
  have hk0 : 0 < k := hk ▸ Real.exp_pos _
  have hi := h.2
  have p2 : 0 < o' fe2 := by rw [show o' fe2 = _ from h2]; positivity
  have p3 : 0 < o' fe3 := by rw [show o' fe3 = _ from h3]; positivity
  refine ⟨p2, p3, ?_, ?_⟩
  · intro i
    by_cases e2 : i = fe2
    · exact e2 ▸ p2.le
    · by_cases e3 : i = fe3
      · exact e3 ▸ p3.le
      · rw [show o' i = _ from ho i e2 e3]; exact h.1 i
  · have hall : allFeO fe2 fe3 o' = allFeO fe2 fe3 o :=
      allFeO_congr _ _ _ _ (C51_iron_conserved capped fe2 fe3 hne coeff t p logfo2 o).1 ho
    have hr : o' fe3 / o' fe2 = k := by
      rw [show o' fe3 = _ from h3, show o' fe2 = _ from h2]
      have : 1 + 2 * k ≠ 0 := by positivity
      field_simp
    rw [KressCarmichael_iff _ _ _ hne, hr, hall, hk, Real.log_exp]

theorem cA_log_ne : cA * Real.log 10 ≠ 0 := by
  have : 0 < Real.log 10 := Real.log_pos (by norm_num)
  unfold cA
  positivity

/-- **C51.** The value read from a composition with both iron oxides is the only log10 fO2 for which the
Kress–Carmichael relation holds. -/
theorem C51_read_satisfies_relation (capped : Bool) (fe2 fe3 : Fin nc) (hne : fe2 ≠ fe3) (coeff : Fin nc → ℝ)
    (t p l : ℝ) (o : Fin nc → ℝ) (h0 : ∀ i, 0 ≤ o i) (h2 : 0 < o fe2) (h3 : 0 < o fe3) :
    KressCarmichael capped fe2 fe3 coeff t p l o ↔ readRedox capped fe2 fe3 coeff t p o = l := by
  have hb : IronBearing fe2 fe3 o := ⟨h0, by unfold iron; positivity⟩
  obtain ⟨e1, e2⟩ := read_sums fe2 fe3 hne coeff o
  have hs := (hb.sum_pos hne).ne'
  rw [KressCarmichael_iff _ _ _ hne]
  unfold readRedox
  rw [if_neg (by push Not; exact ⟨h2.ne', h3.ne'⟩)]
  simp only [e1, if_neg hs]
  rw [add_assoc (tpTerm _ _ _), e2, div_eq_iff cA_log_ne]
  constructor <;> intro h <;> linarith

/-- **C51.** Setting the redox state for a log10 fO2 and reading it back returns that value. -/
theorem C51_read_after_set (capped : Bool) (fe2 fe3 : Fin nc) (hne : fe2 ≠ fe3) (coeff : Fin nc → ℝ)
    (t p logfo2 : ℝ) (o : Fin nc → ℝ) (h : IronBearing fe2 fe3 o) :
    readRedox capped fe2 fe3 coeff t p (setRedox capped fe2 fe3 coeff t p logfo2 o) = logfo2 := by
  obtain ⟨h2, h3, h0, hk⟩ := C51_set_satisfies_relation capped fe2 fe3 hne coeff t p logfo2 o h
  exact (C51_read_satisfies_relation capped fe2 fe3 hne coeff t p logfo2 _ h0 h2 h3).mp hk

/-- **C51.** Re-setting the redox state at the value read from the composition changes nothing. -/
theorem C51_set_after_read (capped : Bool) (fe2 fe3 : Fin nc) (hne : fe2 ≠ fe3) (coeff : Fin nc → ℝ)
    (t p : ℝ) (o : Fin nc → ℝ) (h0 : ∀ i, 0 ≤ o i) (h2 : 0 < o fe2) (h3 : 0 < o fe3) :
    setRedox capped fe2 fe3 coeff t p (readRedox capped fe2 fe3 coeff t p o) o = o := by
  have hb : IronBearing fe2 fe3 o := ⟨h0, by unfold iron; positivity⟩
  have hk := (KressCarmichael_iff _ _ _ hne _ _ _ _ _).mp ((C51_read_satisfies_relation capped fe2 fe3 hne coeff t p _ o h0 h2 h3).mpr rfl)
  obtain ⟨k, hk1, e3, e2, ho⟩ := setRedox_eq capped fe2 fe3 hne coeff t p
    (readRedox capped fe2 fe3 coeff t p o) o hb.2.ne' (hb.sum_pos hne).ne'
  rw [← hk, Real.exp_log (by positivity)] at hk1
  have hden : (1 + 2 * k) * o fe2 = iron fe2 fe3 o := by
    rw [hk1, iron]; field_simp
  have hk0 : 0 < k := by rw [hk1]; positivity
  funext i
  by_cases i2 : i = fe2
  · rw [i2, e2, ← hden]; field_simp
  · by_cases i3 : i = fe3
    · rw [i3, e3, ← hden, hk1]; field_simp
    · exact ho i i2 i3

/-- **C51.** Ferric iron strictly increases with log10 fO2. -/
theorem C51_monotone (capped : Bool) (fe2 fe3 : Fin nc) (hne : fe2 ≠ fe3) (coeff : Fin nc → ℝ)
    (t p l l' : ℝ) (o : Fin nc → ℝ) (h : IronBearing fe2 fe3 o) (hl : l < l') :
    setRedox capped fe2 fe3 coeff t p l o fe3 < setRedox capped fe2 fe3 coeff t p l' o fe3 := by
  obtain ⟨k, hk, e3, -, -⟩ := setRedox_eq capped fe2 fe3 hne coeff t p l o h.2.ne' (h.sum_pos hne).ne'
  obtain ⟨k', hk', e3', -, -⟩ := setRedox_eq capped fe2 fe3 hne coeff t p l' o h.2.ne' (h.sum_pos hne).ne'
  have hA : 0 < cA * Real.log 10 := by
    have : 0 < Real.log 10 := Real.log_pos (by norm_num)
    unfold cA; positivity
  have hlt : k < k' := by
    rw [hk, hk']
    apply Real.exp_lt_exp.mpr
    have := mul_lt_mul_of_pos_left hl hA
    linarith
  have hk0 : 0 < k := hk ▸ Real.exp_pos _
  have hk0' : 0 < k' := hk' ▸ Real.exp_pos _
  rw [e3, e3', div_lt_div_iff₀ (by positivity) (by positivity)]
  nlinarith [h.2]

/-- **C51.** The result does not depend on how the iron was distributed before. -/
theorem C51_forgets_speciation (capped : Bool) (fe2 fe3 : Fin nc) (coeff : Fin nc → ℝ)
    (t p l : ℝ) (o o' : Fin nc → ℝ) (hi : iron fe2 fe3 o = iron fe2 fe3 o')
    (ho : ∀ i, i ≠ fe2 → i ≠ fe3 → o i = o' i) :
    setRedox capped fe2 fe3 coeff t p l o = setRedox capped fe2 fe3 coeff t p l o' := by
  unfold setRedox
  rw [allFeO_congr fe2 fe3 o o' hi ho]

/-- **C51.** A composition lacking either iron oxide reads back log10 fO2 = 0 whatever T, P. -/
theorem C51_ironfree_reads_zero (capped : Bool) (fe2 fe3 : Fin nc) (coeff : Fin nc → ℝ) (t p : ℝ)
    (o : Fin nc → ℝ) (h : o fe2 = 0 ∨ o fe3 = 0) : readRedox capped fe2 fe3 coeff t p o = 0 := by
  unfold readRedox
  rw [if_pos h]

/-- The high-pressure branch of `conLiq` joins the other one without a jump. -/
theorem C51_branches_join (t p : ℝ) (hp : p = 50000) : tpTerm true t p = tpTerm false t p := by
  subst hp
  unfold tpTerm
  rw [if_neg (by norm_num), if_pos (by norm_num)]
  norm_num

/-- A concrete basalt-like liquid in which the hypotheses hold. -/
example : IronBearing (nc := 3) 1 2 ![5, 1, 1 / 10] := by
  refine ⟨fun i => by fin_cases i <;> norm_num, ?_⟩
  rw [iron, show (![5, 1, 1 / 10] : Fin 3 → ℝ) 1 = 1 from rfl, show (![5, 1, 1 / 10] : Fin 3 → ℝ) 2 = 1 / 10 from rfl]
  norm_num

end

end Magma.Thermo.Redox
