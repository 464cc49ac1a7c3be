import Mathlib.Algebra.BigOperators.Group.Finset.Basic
import Mathlib.Algebra.BigOperators.Field
import Mathlib.Algebra.BigOperators.Intervals
import Mathlib.Algebra.Order.Field.Basic
import Mathlib.Data.Rat.Cast.Order
import Mathlib.Data.List.Induction
import Mathlib.Tactic.Ring
import Mathlib.Tactic.Linarith
import Mathlib.Tactic.LinearCombination
import Mathlib.Tactic.FieldSimp

/-!
Run mode and assimilants in the user interface: `SetMode`, the reference values kept by the step recorder,
`ClearAllAssimilants`, `AddAssimilant` (/repo/src/melts_interface.cpp 289-312, 425-519,
/repo/include/melts_interface.hpp 300-310).

Simplification: `double` is a field.
-/

namespace Magma.Iface.Settings

open Finset

/-! ### Run mode -/

/-- `isenthalpic`, `isentropic`, `isochoric`. -/
structure Flags where
  h : Bool
  s : Bool
  v : Bool
deriving DecidableEq

/-- `SetMode(0)`, melts_interface.cpp 292-295. -/
def mode0 : Flags := ⟨false, false, false⟩

/-- `SetMode`, melts_interface.cpp 289-312 (with a state). -/
def setMode (_ : Flags) (mode : ℤ) : Flags :=
  if mode = 0 then mode0
  else if mode = 1 then ⟨true, false, false⟩
  else if mode = 2 then ⟨false, true, false⟩
  else if mode = 3 then ⟨false, false, true⟩
  else mode0

/-- Whatever was set before, exactly the switch of the chosen mode is on; any other number means none. -/
theorem C31_exclusive (f : Flags) (mode : ℤ) :
    ((setMode f mode).h = true ↔ mode = 1) ∧ ((setMode f mode).s = true ↔ mode = 2) ∧
      ((setMode f mode).v = true ↔ mode = 3) := by
  unfold setMode mode0
  split_ifs with h0 h1 h2 h3 <;> simp_all

/-- In any sequence of mode selections, the last one counts and at most one switch is on. -/
theorem C31_history (f : Flags) (ms : List ℤ) (m : ℤ) :
    (ms ++ [m]).foldl setMode f = setMode mode0 m ∧
      ¬ (((ms ++ [m]).foldl setMode f).h = true ∧ ((ms ++ [m]).foldl setMode f).s = true) ∧
      ¬ (((ms ++ [m]).foldl setMode f).h = true ∧ ((ms ++ [m]).foldl setMode f).v = true) ∧
      ¬ (((ms ++ [m]).foldl setMode f).s = true ∧ ((ms ++ [m]).foldl setMode f).v = true) := by
  have e : (ms ++ [m]).foldl setMode f = setMode mode0 m := by
    rw [List.foldl_append]; rfl
  rw [e]
  obtain ⟨h1, h2, h3⟩ := C31_exclusive mode0 m
  refine ⟨rfl, ?_, ?_, ?_⟩ <;> rw [not_and]
  · intro a b; have := h1.mp a; have := h2.mp b; omega
  · intro a b; have := h1.mp a; have := h3.mp b; omega
  · intro a b; have := h2.mp a; have := h3.mp b; omega

variable {K : Type*} [Field K] [DecidableEq K]

/-- `refEnthalpy`, `refEntropy`, `refVolume`. -/
structure Refs (K : Type*) where
  h : K
  s : K
  v : K
deriving DecidableEq

/-- Recording a step with measured totals `t`, melts_interface.hpp: `if (isX && refX == 0.0) refX = total;
if (!isX) refX = 0;`. -/
def record (f : Flags) (t r : Refs K) : Refs K where
  h := if f.h then (if r.h = 0 then t.h else r.h) else 0
  s := if f.s then (if r.s = 0 then t.s else r.s) else 0
  v := if f.v then (if r.v = 0 then t.v else r.v) else 0

/-- After recording, only the chosen constraint has a reference; it is the one held before or, if there was none, the
total just measured. -/
theorem C31_references (f : Flags) (t r : Refs K) :
    (f.h = false → (record f t r).h = 0) ∧ (f.s = false → (record f t r).s = 0) ∧
    (f.v = false → (record f t r).v = 0) ∧
    (f.h = true → (record f t r).h = if r.h = 0 then t.h else r.h) ∧
    (f.s = true → (record f t r).s = if r.s = 0 then t.s else r.s) ∧
    (f.v = true → (record f t r).v = if r.v = 0 then t.v else r.v) := by
  unfold record
  refine ⟨?_, ?_, ?_, ?_, ?_, ?_⟩ <;> intro h <;> simp [h]

/-- While the mode is not changed, the reference set at the first recorded step with a non-zero total is kept at all
later steps, whatever is measured. -/
theorem C31_reference_fixed (f : Flags) (t : Refs K) (ts : List (Refs K)) (r : Refs K) (hf : f.h = true) (ht : t.h ≠ 0)
    (hr : r.h = 0) : (ts.foldl (fun r t => record f t r) (record f t r)).h = t.h := by
  have h0 : (record f t r).h = t.h := by simp [record, hf, hr]
  have gen : ∀ (ts : List (Refs K)) (q : Refs K), q.h = t.h → (ts.foldl (fun r t => record f t r) q).h = t.h := by
    intro ts
    induction ts with
    | nil => intro q hq; exact hq
    | cons u us ih =>
      intro q hq
      rw [List.foldl_cons]
      refine ih _ ?_
      simp [record, hf, hq, ht]
  exact gen ts _ h0

/-! ### Assimilants -/

/-- Tables: `npc`, `solids[].na`, `solids[].mw`; `bulkSystem` and `oxToLiq` as a function `toLiq` from grams per 100 g
and mass to moles of liquid components. -/
structure Table (K : Type*) where
  npc : ℕ
  nlc : ℕ
  na : ℕ → ℕ
  mw : ℕ → K
  /-- melts_interface.cpp 505-512: moles of component `i` for `mass` grams with the given weight percents -/
  toLiq : (ℕ → K) → K → ℕ → K

/-- `dspAssimMass`, `dspAssimLiqM`, `assimComp[.][0]`, `nAssimComp` flags. -/
structure Assim (K : Type*) where
  mass : K
  liqM : K
  comp : ℕ → K
  has : ℕ → Bool

/-- melts_interface.cpp 425-457 (and the initial state, 190-200). -/
def cleared : Assim K := ⟨0, 0, fun _ => 0, fun _ => false⟩

/-- Sum of `end_members[j+1] * solids[p+1+j].mw / 100`, melts_interface.cpp 494-496. -/
def mix (T : Table K) (p : ℕ) (em : ℕ → K) : K := ∑ j ∈ range (T.na p), em (j + 1) * T.mw (p + 1 + j) / 100

/-- melts_interface.cpp 497. -/
def molesToAdd (T : Table K) (p : ℕ) (mass : K) (em : ℕ → K) : K :=
  if mix T p em = 0 then 0 else mass / mix T p em

/-- `AddAssimilant`, melts_interface.cpp 460-519. The composition array has `npc + nlc` entries. -/
def add (T : Table K) (A : Assim K) (p : ℕ) (mass : K) (em : ℕ → K) : Assim K :=
  if p < T.npc then
    { A with
      mass := A.mass + mass
      has := Function.update A.has p true
      comp := fun q =>
        if T.na p = 1 then (if q = p then A.comp q + mass / T.mw p else A.comp q)
        else if q = p then A.comp q + molesToAdd T p mass em
        else if p < q ∧ q ≤ p + T.na p then A.comp q + em (q - p) * molesToAdd T p mass em / 100
        else A.comp q }
  else if p = T.npc then
    { mass := A.mass + mass - A.liqM
      liqM := mass
      has := Function.update A.has (p + 1) true
      comp := fun q => if T.npc ≤ q ∧ q < T.npc + T.nlc then T.toLiq em mass (q - T.npc) else A.comp q }
  else { A with mass := A.mass + mass }

/-- One call. -/
structure Add (K : Type*) where
  p : ℕ
  mass : K
  em : ℕ → K

def addAll (T : Table K) (l : List (Add K)) : Assim K := l.foldl (fun A a => add T A a.p a.mass a.em) cleared

/-! #### Specification -/

/-- Total of what was added, the liquid counting only once, with its last mass. -/
def expectedMass (T : Table K) (l : List (Add K)) : K :=
  ((l.filter fun a => a.p ≠ T.npc).map Add.mass).sum + (((l.filter fun a => a.p = T.npc).getLast?.map Add.mass).getD 0)

/-- Layout of the phase table used: end members of a solution follow it and are not added themselves. -/
def Layout (T : Table K) (l : List (Add K)) : Prop :=
  ∀ a ∈ l, a.p < T.npc → T.na a.p ≠ 1 → a.p + T.na a.p < T.npc ∧ ∀ b ∈ l, b.p < T.npc → ¬ (a.p < b.p ∧ b.p ≤ a.p + T.na a.p)

theorem addAll_append (T : Table K) (l : List (Add K)) (a : Add K) :
    addAll T (l ++ [a]) = add T (addAll T l) a.p a.mass a.em := by
  unfold addAll; rw [List.foldl_append]; rfl

theorem liqM_eq (T : Table K) (l : List (Add K)) :
    (addAll T l).liqM = ((l.filter fun a => a.p = T.npc).getLast?.map Add.mass).getD 0 := by
  induction l using List.reverseRecOn with
  | nil => rfl
  | append_singleton l a ih =>
    rw [addAll_append, List.filter_append]
    unfold add
    by_cases h1 : a.p < T.npc
    · simp only [h1, if_true]
      have : a.p ≠ T.npc := by omega
      simpa [this] using ih
    · by_cases h2 : a.p = T.npc
      · simp only [h1, if_false, h2, if_true, lt_irrefl]
        simp [h2]
      · simp only [h1, if_false, h2]
        simpa [h2] using ih

/-- The total assimilant mass is the sum of what was added; adding the liquid again replaces its mass. -/
theorem C37_mass (T : Table K) (l : List (Add K)) : (addAll T l).mass = expectedMass T l := by
  induction l using List.reverseRecOn with
  | nil => simp [addAll, cleared, expectedMass]
  | append_singleton l a ih =>
    have hl := liqM_eq T l
    rw [addAll_append]
    unfold expectedMass at ih ⊢
    rw [List.filter_append, List.filter_append]
    unfold add
    by_cases h2 : a.p = T.npc
    · have h1 : ¬ a.p < T.npc := by omega
      simp only [h2, if_true, lt_irrefl, if_false]
      rw [ih, hl]
      simp [h2]
      ring
    · have e : (if a.p < T.npc then
          { addAll T l with
            mass := (addAll T l).mass + a.mass
            has := Function.update (addAll T l).has a.p true
            comp := fun q =>
              if T.na a.p = 1 then (if q = a.p then (addAll T l).comp q + a.mass / T.mw a.p else (addAll T l).comp q)
              else if q = a.p then (addAll T l).comp q + molesToAdd T a.p a.mass a.em
              else if a.p < q ∧ q ≤ a.p + T.na a.p then (addAll T l).comp q + a.em (q - a.p) * molesToAdd T a.p a.mass a.em / 100
              else (addAll T l).comp q }
        else if a.p = T.npc then
          { mass := (addAll T l).mass + a.mass - (addAll T l).liqM
            liqM := a.mass
            has := Function.update (addAll T l).has (a.p + 1) true
            comp := fun q => if T.npc ≤ q ∧ q < T.npc + T.nlc then T.toLiq a.em a.mass (q - T.npc) else (addAll T l).comp q }
        else { addAll T l with mass := (addAll T l).mass + a.mass } : Assim K).mass = (addAll T l).mass + a.mass := by
        split_ifs <;> first | rfl | exact absurd ‹_› h2
      rw [e, ih]
      simp [h2]
      ring

/-- Moles of a pure phase: the sum of mass over molecular weight of its additions, whatever else was added. -/
theorem C37_pure_moles (T : Table K) (l : List (Add K)) (hl : Layout T l) (p : ℕ) (hp : p < T.npc) (hna : T.na p = 1)
    (hin : ∀ a ∈ l, a.p < T.npc → T.na a.p ≠ 1 → ¬ (a.p < p ∧ p ≤ a.p + T.na a.p)) :
    (addAll T l).comp p = ((l.filter fun a => a.p = p).map fun a => a.mass / T.mw p).sum := by
  induction l using List.reverseRecOn with
  | nil => simp [addAll, cleared]
  | append_singleton l a ih =>
    have hl' : Layout T l := fun x hx h1 h2 =>
      ⟨(hl x (List.mem_append_left _ hx) h1 h2).1, fun y hy => (hl x (List.mem_append_left _ hx) h1 h2).2 y
        (List.mem_append_left _ hy)⟩
    have hin' : ∀ x ∈ l, x.p < T.npc → T.na x.p ≠ 1 → ¬ (x.p < p ∧ p ≤ x.p + T.na x.p) := fun x hx =>
      hin x (List.mem_append_left _ hx)
    have ih := ih hl' hin'
    rw [addAll_append, List.filter_append, List.map_append, List.sum_append, ← ih]
    unfold add
    by_cases h1 : a.p < T.npc
    · simp only [h1, if_true]
      by_cases hpa : a.p = p
      · simp [hpa, hna]
      · have hpa' : p ≠ a.p := fun e => hpa e.symm
        by_cases hn1 : T.na a.p = 1
        · simp [hn1, hpa, hpa']
        · have := hin a (by simp) h1 hn1
          simp [hn1, hpa, hpa', this]
    · have hpa : a.p ≠ p := by omega
      by_cases h2 : a.p = T.npc
      · have : ¬ T.npc ≤ p := by omega
        simp [h2, this, hp.ne']
      · simp [h1, h2, hpa]

/-- Grams represented by an addition of a solution, from its end members' moles. -/
theorem mix_moles (T : Table K) (p : ℕ) (mass : K) (em : ℕ → K) (h : mix T p em ≠ 0) :
    ∑ j ∈ range (T.na p), em (j + 1) * molesToAdd T p mass em / 100 * T.mw (p + 1 + j) = mass := by
  have e : ∀ j ∈ range (T.na p), em (j + 1) * molesToAdd T p mass em / 100 * T.mw (p + 1 + j) =
      molesToAdd T p mass em * (em (j + 1) * T.mw (p + 1 + j) / 100) := fun j _ => by ring
  rw [sum_congr rfl e, ← mul_sum]
  show molesToAdd T p mass em * mix T p em = mass
  unfold molesToAdd
  rw [if_neg h]
  exact div_mul_cancel₀ _ h

/-- Adding a solution with proportions of non-zero mean molecular weight adds end-member moles that weigh exactly the
mass added, in the given proportions. -/
theorem C37_solution (T : Table K) (A : Assim K) (p : ℕ) (mass : K) (em : ℕ → K) (hp : p < T.npc) (hna : T.na p ≠ 1)
    (h : mix T p em ≠ 0) :
    (∑ j ∈ range (T.na p), ((add T A p mass em).comp (p + 1 + j) - A.comp (p + 1 + j)) * T.mw (p + 1 + j) = mass) ∧
    (∀ i j, i < T.na p → j < T.na p →
      em (i + 1) * ((add T A p mass em).comp (p + 1 + j) - A.comp (p + 1 + j)) =
        em (j + 1) * ((add T A p mass em).comp (p + 1 + i) - A.comp (p + 1 + i))) := by
  have e : ∀ j < T.na p, (add T A p mass em).comp (p + 1 + j) - A.comp (p + 1 + j) =
      em (j + 1) * molesToAdd T p mass em / 100 := by
    intro j hj
    have e1 : p + 1 + j ≠ p := by omega
    have e2 : p < p + 1 + j ∧ p + 1 + j ≤ p + T.na p := by omega
    have e3 : p + 1 + j - p = j + 1 := by omega
    unfold add
    simp only [hp, if_true, hna, if_false, e1, e2, and_self, e3]
    ring
  constructor
  · rw [sum_congr rfl fun j hj => by rw [e j (mem_range.mp hj)]]
    exact mix_moles T p mass em h
  · intro i j hi hj
    rw [e i hi, e j hj]; ring

/-- The total moles of the solution agree with the sum over its end members only if the percentages add up to 100. -/
theorem C37_solution_total [CharZero K] (T : Table K) (A : Assim K) (p : ℕ) (mass : K) (em : ℕ → K) (hp : p < T.npc)
    (hna : T.na p ≠ 1) (hm : mass ≠ 0) (h : mix T p em ≠ 0) :
    ((add T A p mass em).comp p - A.comp p =
      ∑ j ∈ range (T.na p), ((add T A p mass em).comp (p + 1 + j) - A.comp (p + 1 + j))) ↔
      ∑ j ∈ range (T.na p), em (j + 1) = 100 := by
  have e : ∀ j ∈ range (T.na p), (add T A p mass em).comp (p + 1 + j) - A.comp (p + 1 + j) =
      em (j + 1) * (molesToAdd T p mass em / 100) := by
    intro j hj
    have hj := mem_range.mp hj
    have e1 : p + 1 + j ≠ p := by omega
    have e2 : p < p + 1 + j ∧ p + 1 + j ≤ p + T.na p := by omega
    have e3 : p + 1 + j - p = j + 1 := by omega
    unfold add
    simp only [hp, if_true, hna, if_false, e1, e2, and_self, e3]
    ring
  have e0 : (add T A p mass em).comp p - A.comp p = molesToAdd T p mass em := by
    unfold add; simp only [hp, if_true, hna, if_false]; ring
  rw [sum_congr rfl e, ← sum_mul, e0]
  have hne : molesToAdd T p mass em ≠ 0 := by
    unfold molesToAdd; rw [if_neg h]; exact div_ne_zero hm h
  have h100 : (100 : K) ≠ 0 := by norm_num
  constructor
  · intro h
    have : molesToAdd T p mass em * 100 = (∑ j ∈ range (T.na p), em (j + 1)) * molesToAdd T p mass em := by
      field_simp at h ⊢
      linear_combination h
    exact (mul_left_cancel₀ hne (by rw [this]; ring) : (100 : K) = _).symm
  · intro h; rw [h]; field_simp

/-- A solution added without end-member data, or an index beyond the liquid, counts towards the mass but adds no
material. -/
theorem C37_mass_without_material (T : Table K) (A : Assim K) (p : ℕ) (mass : K) (em : ℕ → K)
    (h : (p < T.npc ∧ T.na p ≠ 1 ∧ ∀ j < T.na p, em (j + 1) = 0) ∨ T.npc < p) :
    (add T A p mass em).comp = A.comp ∧ (add T A p mass em).mass = A.mass + mass := by
  rcases h with ⟨h1, h2, h3⟩ | h
  · have hm : mix T p em = 0 := sum_eq_zero fun j hj => by rw [h3 j (mem_range.mp hj)]; simp
    have hz : molesToAdd T p mass em = 0 := by unfold molesToAdd; rw [if_pos hm]
    unfold add
    simp only [h1, if_true, h2, if_false, hz, mul_zero, zero_div, add_zero, ite_self, and_self]
  · unfold add
    have h1 : ¬ p < T.npc := by omega
    have h2 : p ≠ T.npc := by omega
    simp only [h1, if_false, h2, and_self]

/-- The liquid assimilant is replaced, not accumulated, and the solids are not touched. -/
theorem C37_liquid_replaced (T : Table K) (A : Assim K) (mass : K) (em : ℕ → K) :
    (∀ i < T.nlc, (add T A T.npc mass em).comp (T.npc + i) = T.toLiq em mass i) ∧
    (∀ q < T.npc, (add T A T.npc mass em).comp q = A.comp q) := by
  unfold add
  simp only [lt_irrefl, if_false, if_true]
  constructor
  · intro i hi
    have e1 : T.npc ≤ T.npc + i ∧ T.npc + i < T.npc + T.nlc := by omega
    have e2 : T.npc + i - T.npc = i := by omega
    simp only [e1, and_self, if_true, e2]
  · intro q hq
    have : ¬ (T.npc ≤ q ∧ q < T.npc + T.nlc) := by omega
    simp only [this, if_false]

/-- Heat content of the liquid assimilant, melts_interface.cpp 567-590. The accumulation loop declares its own
`totalMoles`, so the factor used is the uninitialised outer variable: `junk`. -/
def liquidEnthalpy (hmix junk pure : K) : K := hmix * junk + pure

/-- The heat content of a liquid assimilant with heat of mixing is not determined by the inputs: any value is possible. -/
theorem C37_liquid_enthalpy_undetermined (hmix pure : K) (h : hmix ≠ 0) (value : K) :
    ∃ junk, liquidEnthalpy hmix junk pure = value :=
  ⟨(value - pure) / hmix, by unfold liquidEnthalpy; rw [mul_div_cancel₀ _ h]; ring⟩

/-! ### The hypotheses are met -/

/-- Row 0: a pure phase of weight 60; rows 1-3: a solution with end members of weight 200 and 140. -/
def exT : Table ℚ where
  npc := 4
  nlc := 2
  na := fun p => if p = 1 then 2 else 1
  mw := fun p => if p = 0 then 60 else if p = 2 then 200 else 140
  toLiq := fun em mass i => em i * mass / 100

def exL : List (Add ℚ) :=
  [⟨0, 30, fun _ => 0⟩, ⟨1, 17, fun j => if j = 1 then 50 else 50⟩, ⟨4, 9, fun _ => 50⟩, ⟨0, 60, fun _ => 0⟩, ⟨4, 4, fun _ => 25⟩]

example : Layout exT exL := by unfold Layout exL exT; decide
example : (addAll exT exL).mass = 111 ∧ expectedMass exT exL = 111 := by decide +kernel
example : (addAll exT exL).comp 0 = 3 / 2 ∧ (addAll exT exL).comp 2 = 1 / 20 ∧ (addAll exT exL).comp 4 = 1 := by
  decide +kernel
example : ∀ a ∈ exL, a.p < exT.npc → exT.na a.p ≠ 1 → ¬ (a.p < 0 ∧ 0 ≤ a.p + exT.na a.p) := by unfold exL exT; decide
example : mix exT 1 (fun _ => 50) ≠ 0 := by decide +kernel
example : (record ⟨true, false, false⟩ (⟨5, 6, 7⟩ : Refs ℚ) ⟨0, 1, 1⟩) = ⟨5, 0, 0⟩ := by decide +kernel

end Magma.Iface.Settings
