import Mathlib.Algebra.BigOperators.Fin
import Mathlib.Algebra.BigOperators.Field
import Mathlib.Algebra.Field.Rat
import Mathlib.Data.Rat.Cast.Order
import Mathlib.Tactic.Ring
import Mathlib.Tactic.Linarith
import Mathlib.Tactic.LinearCombination
import Mathlib.Tactic.FieldSimp
import Mathlib.Tactic.NormNum
import Mathlib.Data.Fin.VecNotation
import Mathlib.Data.Fintype.Fin

/-!
Entering a bulk composition: `Normalize` and `SetComposition` of the user interface
(/repo/src/melts_interface.cpp 92-107, 369-417) and the two branches of `meltsprocess_`
(/repo/sources/library.c 694-722).

Simplification: `double` is a field; a quotient by zero is made visible by `Option` where the code does not exclude it.
Loops are written as folds in the order of the code, because the place where `oxygen` is reset matters.
-/

namespace Magma.Iface.Composition

open Finset

variable {nc nlc : ℕ} {K : Type*} [Field K]

/-- Static tables: `bulkSystem[].mw`, `bulkSystem[].oxToLiq`, `oxygen.liqToOx`. -/
structure Tables (nc nlc : ℕ) (K : Type*) where
  mw : Fin nc → K
  oxToLiq : Fin nc → Fin nlc → K
  oxy : Fin nlc → K

/-- `bulkComp`, `liquidMass`, `liquidComp[0]`, `oxygen` of the state. -/
structure St (nc nlc : ℕ) (K : Type*) where
  bulk : Fin nc → K
  liquidMass : K
  liq : Fin nlc → K
  oxygen : K

/-- A loop `for (i=0; i<n; i++) acc = f(acc, i)`. -/
def loop {n : ℕ} {β : Type*} (f : β → Fin n → β) (a : β) : β := (List.finRange n).foldl f a

/-- The nested loop of melts_interface.cpp 408-412 and library.c 716-721: both `liquidComp[0][i]` and `oxygen` are reset
for every `i`. -/
def spread (T : Tables nc nlc K) (bulk : Fin nc → K) (s : (Fin nlc → K) × K) : (Fin nlc → K) × K :=
  loop (fun s i =>
    loop (fun (s : (Fin nlc → K) × K) j =>
        (Function.update s.1 i (s.1 i + bulk j * T.oxToLiq j i), s.2 + bulk j * T.oxToLiq j i * T.oxy i))
      (Function.update s.1 i 0, 0)) s

/-- `SetComposition`, melts_interface.cpp 398-412, and the branch for a fresh node, library.c 711-722. -/
def fresh (T : Tables nc nlc K) (grams : Fin nc → K) (s : St nc nlc K) : St nc nlc K :=
  let bulk := fun i => grams i / T.mw i
  let r := spread T bulk (s.liq, s.oxygen)
  { bulk := bulk, liquidMass := loop (fun a i => a + grams i) 0, liq := r.1, oxygen := r.2 }

/-- The branch for a node that already has a bulk composition, library.c 695-709. -/
def update (T : Tables nc nlc K) (grams : Fin nc → K) (s : St nc nlc K) : St nc nlc K :=
  let change := fun i => grams i / T.mw i - s.bulk i
  let r := loop (fun (r : (Fin nlc → K) × K) i =>
    loop (fun (r : (Fin nlc → K) × K) j =>
      (Function.update r.1 i (r.1 i + change j * T.oxToLiq j i), r.2 + change j * T.oxToLiq j i * T.oxy i)) r)
    (s.liq, s.oxygen)
  { bulk := fun i => s.bulk i + change i
    liquidMass := loop (fun a i => a + (grams i - s.bulk i * T.mw i)) s.liquidMass
    liq := r.1, oxygen := r.2 }

/-- library.c 682-687, 694: which branch is taken for a node that exists. -/
def process [DecidableEq K] (T : Tables nc nlc K) (grams : Fin nc → K) (s : St nc nlc K) : St nc nlc K :=
  if ∃ i, s.bulk i ≠ 0 then update T grams s else fresh T grams s

/-! ### Loops as sums -/

theorem loop_add {n : ℕ} (f : Fin n → K) (a : K) : loop (fun acc i => acc + f i) a = a + ∑ i, f i := by
  have h : ∀ (l : List (Fin n)) (a : K), l.foldl (fun acc i => acc + f i) a = a + (l.map f).sum := by
    intro l
    induction l with
    | nil => intro a; simp
    | cons x l ih => intro a; simp only [List.foldl_cons, List.map_cons, List.sum_cons]; rw [ih]; ring
  unfold loop
  rw [h, ← List.ofFn_eq_map, List.sum_ofFn]

/-- The inner loop: component `i` and `oxygen` grow together. -/
theorem inner (c : Fin nc → K) (o : K) (i : Fin nlc) (s : (Fin nlc → K) × K) :
    loop (fun (s : (Fin nlc → K) × K) j => (Function.update s.1 i (s.1 i + c j), s.2 + c j * o)) s =
      (Function.update s.1 i (s.1 i + ∑ j, c j), s.2 + (∑ j, c j) * o) := by
  have h : ∀ (l : List (Fin nc)) (s : (Fin nlc → K) × K),
      l.foldl (fun (s : (Fin nlc → K) × K) j => (Function.update s.1 i (s.1 i + c j), s.2 + c j * o)) s =
        (Function.update s.1 i (s.1 i + (l.map c).sum), s.2 + (l.map c).sum * o) := by
    intro l
    induction l with
    | nil => intro s; simp
    | cons x l ih =>
      intro s
      simp only [List.foldl_cons, List.map_cons, List.sum_cons]
      rw [ih]
      simp only [Function.update_self, Function.update_idem]
      refine Prod.ext ?_ ?_ <;> simp only
      · congr 1; ring
      · ring
  unfold loop
  rw [h, ← List.ofFn_eq_map, List.sum_ofFn]

theorem foldl_set (v : Fin nlc → K) (f : (Fin nlc → K) × K → Fin nlc → K) : ∀ (l : List (Fin nlc)) (s : (Fin nlc → K) × K) (i),
    (l.foldl (fun (s : (Fin nlc → K) × K) i => (Function.update s.1 i (v i), f s i)) s).1 i =
      if i ∈ l then v i else s.1 i
  | [], s, i => by simp
  | x :: l, s, i => by
    rw [List.foldl_cons, foldl_set v f l]
    simp only [List.mem_cons]
    by_cases h1 : i ∈ l
    · simp [h1]
    · by_cases h2 : i = x
      · subst h2; simp [h1]
      · simp [h1, h2]

theorem spread_liq (T : Tables nc nlc K) (bulk : Fin nc → K) (s : (Fin nlc → K) × K) (i : Fin nlc) :
    (spread T bulk s).1 i = ∑ j, bulk j * T.oxToLiq j i := by
  unfold spread
  simp only [inner, Function.update_self, Function.update_idem, zero_add]
  unfold loop
  rw [foldl_set (fun i => ∑ j, bulk j * T.oxToLiq j i) (fun _ i => (∑ j, bulk j * T.oxToLiq j i) * T.oxy i)]
  simp

theorem spread_oxygen {n : ℕ} (T : Tables nc (n + 1) K) (bulk : Fin nc → K) (s : (Fin (n + 1) → K) × K) :
    (spread T bulk s).2 = (∑ j, bulk j * T.oxToLiq j (Fin.last n)) * T.oxy (Fin.last n) := by
  unfold spread
  simp only [inner, Function.update_self, Function.update_idem, zero_add]
  unfold loop
  rw [List.finRange_succ_last, List.foldl_append]
  rfl

theorem update_acc (v : Fin nlc → K) (o : Fin nlc → K) (s : (Fin nlc → K) × K) :
    loop (fun (s : (Fin nlc → K) × K) i => (Function.update s.1 i (s.1 i + v i), s.2 + v i * o i)) s =
      (fun i => s.1 i + v i, s.2 + ∑ i, v i * o i) := by
  have h : ∀ (l : List (Fin nlc)), l.Nodup → ∀ (s : (Fin nlc → K) × K),
      l.foldl (fun (s : (Fin nlc → K) × K) i => (Function.update s.1 i (s.1 i + v i), s.2 + v i * o i)) s =
        (fun i => s.1 i + if i ∈ l then v i else 0, s.2 + (l.map fun i => v i * o i).sum) := by
    intro l
    induction l with
    | nil => intro _ s; simp
    | cons x l ih =>
      intro hd s
      have hx := (List.nodup_cons.mp hd).1
      simp only [List.foldl_cons, List.map_cons, List.sum_cons]
      rw [ih (List.nodup_cons.mp hd).2]
      refine Prod.ext ?_ ?_ <;> simp only
      · funext i
        by_cases h : i = x
        · subst h; simp [hx]
        · simp [h]
      · ring
  unfold loop
  rw [h _ (List.nodup_finRange _), ← List.ofFn_eq_map, List.sum_ofFn]
  simp

theorem update_eq (T : Tables nc nlc K) (g : Fin nc → K) (s : St nc nlc K) :
    update T g s =
      { bulk := fun i => g i / T.mw i
        liquidMass := s.liquidMass + ∑ i, (g i - s.bulk i * T.mw i)
        liq := fun i => s.liq i + ∑ j, (g j / T.mw j - s.bulk j) * T.oxToLiq j i
        oxygen := s.oxygen + ∑ i, (∑ j, (g j / T.mw j - s.bulk j) * T.oxToLiq j i) * T.oxy i } := by
  unfold update
  simp only [inner, update_acc, loop_add]
  congr 1
  funext i; ring

/-! ### C33 -/

/-- After entering a composition in grams, the bulk moles times the molecular weights are the grams entered, the liquid
mass is their sum, whatever the state was before. -/
theorem C33_bulk (T : Tables nc nlc K) (g : Fin nc → K) (s : St nc nlc K) (hmw : ∀ i, T.mw i ≠ 0) :
    (∀ i, (fresh T g s).bulk i * T.mw i = g i) ∧ (fresh T g s).liquidMass = ∑ i, g i := by
  constructor
  · intro i; exact div_mul_cancel₀ _ (hmw i)
  · show loop (fun a i => a + g i) 0 = _
    rw [loop_add, zero_add]

/-- The liquid components, converted back to oxides, are the bulk composition. -/
theorem C33_liquid (T : Tables nc nlc K) (liqToOx : Fin nlc → Fin nc → K)
    (hinv : ∀ j k, ∑ i, T.oxToLiq j i * liqToOx i k = if j = k then 1 else 0) (g : Fin nc → K) (s : St nc nlc K)
    (k : Fin nc) : ∑ i, (fresh T g s).liq i * liqToOx i k = (fresh T g s).bulk k := by
  have h : ∀ i, (fresh T g s).liq i = ∑ j, (fresh T g s).bulk j * T.oxToLiq j i := fun i => spread_liq ..
  simp only [h, sum_mul]
  rw [sum_comm]
  have : ∀ j, ∑ i, (fresh T g s).bulk j * T.oxToLiq j i * liqToOx i k = (fresh T g s).bulk j * if j = k then 1 else 0 := by
    intro j
    rw [← hinv j k, mul_sum]
    exact sum_congr rfl fun i _ => by ring
  simp [this]

/-- The mass of the liquid computed from its components is the mass entered. -/
theorem C33_mass (T : Tables nc nlc K) (liqToOx : Fin nlc → Fin nc → K)
    (hinv : ∀ j k, ∑ i, T.oxToLiq j i * liqToOx i k = if j = k then 1 else 0) (hmw : ∀ i, T.mw i ≠ 0)
    (g : Fin nc → K) (s : St nc nlc K) :
    ∑ i, (fresh T g s).liq i * ∑ k, liqToOx i k * T.mw k = ∑ k, g k := by
  have : ∀ i, (fresh T g s).liq i * ∑ k, liqToOx i k * T.mw k = ∑ k, (fresh T g s).liq i * liqToOx i k * T.mw k := by
    intro i; rw [mul_sum]; exact sum_congr rfl fun k _ => by ring
  simp only [this]
  rw [sum_comm]
  refine sum_congr rfl fun k _ => ?_
  rw [← sum_mul, C33_liquid T liqToOx hinv]
  exact (C33_bulk T g s hmw).1 k

/-- The recorded oxygen is the contribution of the last liquid component only. -/
theorem C33_oxygen_last_only {n : ℕ} (T : Tables nc (n + 1) K) (g : Fin nc → K) (s : St nc (n + 1) K) :
    (fresh T g s).oxygen = (fresh T g s).liq (Fin.last n) * T.oxy (Fin.last n) := by
  have h : (fresh T g s).liq (Fin.last n) = ∑ j, (fresh T g s).bulk j * T.oxToLiq j (Fin.last n) := spread_liq ..
  rw [h]
  exact spread_oxygen ..

/-- It is the oxygen of the whole liquid exactly when the other components contribute nothing. -/
theorem C33_oxygen_wrong {n : ℕ} (T : Tables nc (n + 1) K) (g : Fin nc → K) (s : St nc (n + 1) K) :
    (fresh T g s).oxygen = ∑ i, (fresh T g s).liq i * T.oxy i ↔
      ∑ i : Fin n, (fresh T g s).liq i.castSucc * T.oxy i.castSucc = 0 := by
  rw [C33_oxygen_last_only, Fin.sum_univ_castSucc]
  constructor
  · intro h; linear_combination -h
  · intro h; linear_combination -h

/-- The result does not depend on the previous state (with at least one liquid component). -/
theorem C33_forgets {n : ℕ} (T : Tables nc (n + 1) K) (g : Fin nc → K) (s s' : St nc (n + 1) K) :
    fresh T g s = fresh T g s' := by
  have h : (fresh T g s).liq = (fresh T g s').liq := by
    funext i
    exact (spread_liq T _ _ i).trans (spread_liq T _ _ i).symm
  have ho : (fresh T g s).oxygen = (fresh T g s').oxygen := by
    rw [C33_oxygen_last_only, C33_oxygen_last_only, h]
  unfold fresh at h ho ⊢
  simp only at h ho ⊢
  rw [h, ho]

/-! ### C39 -/

/-- A node that is processed again: the bulk becomes the new composition, the first liquid takes up the whole change,
and the liquid mass changes by the change of the bulk mass. -/
theorem C39_update (T : Tables nc nlc K) (g : Fin nc → K) (s : St nc nlc K) (hmw : ∀ i, T.mw i ≠ 0) :
    (∀ i, (update T g s).bulk i * T.mw i = g i) ∧
    (update T g s).liquidMass - s.liquidMass = ∑ i, g i - ∑ i, s.bulk i * T.mw i := by
  rw [update_eq]
  constructor
  · intro i; exact div_mul_cancel₀ _ (hmw i)
  · simp only [sum_sub_distrib]; ring

/-- If the phases of the node made up its bulk (`rest` is everything but the first liquid), they make up the new bulk. -/
theorem C39_balance (T : Tables nc nlc K) (liqToOx : Fin nlc → Fin nc → K)
    (hinv : ∀ j k, ∑ i, T.oxToLiq j i * liqToOx i k = if j = k then 1 else 0)
    (g : Fin nc → K) (s : St nc nlc K) (rest : Fin nc → K)
    (h : ∀ k, rest k + ∑ i, s.liq i * liqToOx i k = s.bulk k) (k : Fin nc) :
    rest k + ∑ i, (update T g s).liq i * liqToOx i k = (update T g s).bulk k := by
  rw [update_eq]
  simp only [add_mul, sum_add_distrib]
  have e : ∑ i, (∑ j, (g j / T.mw j - s.bulk j) * T.oxToLiq j i) * liqToOx i k = g k / T.mw k - s.bulk k := by
    simp only [sum_mul]
    rw [sum_comm]
    have : ∀ j, ∑ i, (g j / T.mw j - s.bulk j) * T.oxToLiq j i * liqToOx i k =
        (g j / T.mw j - s.bulk j) * if j = k then 1 else 0 := by
      intro j
      rw [← hinv j k, mul_sum]
      exact sum_congr rfl fun i _ => by ring
    simp [this]
  rw [e]
  linear_combination h k

/-- Oxygen in this branch follows all components: it keeps step with the liquid. -/
theorem C39_oxygen (T : Tables nc nlc K) (g : Fin nc → K) (s : St nc nlc K) :
    (update T g s).oxygen - s.oxygen = ∑ i, ((update T g s).liq i - s.liq i) * T.oxy i := by
  rw [update_eq]
  simp

/-- Processing a node with the composition it has leaves bulk, liquid, mass and oxygen unchanged. -/
theorem C39_same_composition (T : Tables nc nlc K) (s : St nc nlc K) (hmw : ∀ i, T.mw i ≠ 0) :
    update T (fun i => s.bulk i * T.mw i) s = s := by
  rw [update_eq]
  have : ∀ i, s.bulk i * T.mw i / T.mw i = s.bulk i := fun i => mul_div_cancel_right₀ _ (hmw i)
  simp [this]

/-- Processing a node twice is processing it with the last composition. -/
theorem C39_last_wins (T : Tables nc nlc K) (g g' : Fin nc → K) (s : St nc nlc K) (hmw : ∀ i, T.mw i ≠ 0) :
    update T g' (update T g s) = update T g' s := by
  rw [update_eq T g' (update T g s), update_eq T g' s, update_eq T g s]
  have e : ∀ j, g j / T.mw j * T.mw j = g j := fun j => div_mul_cancel₀ _ (hmw j)
  congr 1
  · simp only [e]
    rw [add_assoc, ← sum_add_distrib]
    congr 1
    exact sum_congr rfl fun i _ => by ring
  · funext i
    simp only
    rw [add_assoc, ← sum_add_distrib]
    congr 1
    exact sum_congr rfl fun j _ => by ring
  · simp only
    rw [add_assoc, ← sum_add_distrib]
    congr 1
    refine sum_congr rfl fun i _ => ?_
    rw [← add_mul, ← sum_add_distrib]
    congr 1
    exact sum_congr rfl fun j _ => by ring

/-- The liquid can be driven negative: removing an oxide that sits in solids is charged to the liquid. -/
theorem C39_negative_liquid : ∃ (T : Tables 1 1 ℚ) (s : St 1 1 ℚ) (g : Fin 1 → ℚ),
    (∀ i, T.mw i ≠ 0) ∧ (∀ i, 0 ≤ g i) ∧ 0 ≤ s.liq 0 ∧ s.liq 0 ≤ s.bulk 0 ∧ (process T g s).liq 0 < 0 := by
  refine ⟨⟨fun _ => 1, fun _ _ => 1, fun _ => 1⟩, ⟨fun _ => 10, 1, fun _ => 1, 1⟩, fun _ => 5, by simp, by simp, by simp,
    by simp, ?_⟩
  unfold process
  rw [if_pos ⟨0, by simp⟩, update_eq]
  norm_num

/-! ### C32 -/

/-- A quotient of finite doubles: `none` is an infinity or not-a-number. -/
def div? [DecidableEq K] (a b : K) : Option K := if b = 0 then none else some (a / b)

/-- `Normalize`, melts_interface.cpp 92-107, when normalisation is on and a composition has been set: the 20 entries
afterwards. -/
def normalize [DecidableEq K] {n : ℕ} (c : Fin n → K) : Fin n → Option K :=
  let sum := loop (fun a i => a + c i) 0
  fun i => (div? (c i) sum).map (· * 100)

theorem normalize_eq [DecidableEq K] {n : ℕ} (c : Fin n → K) (h : ∑ i, c i ≠ 0) (i : Fin n) :
    normalize c i = some (c i / (∑ j, c j) * 100) := by
  unfold normalize div?
  simp only [loop_add, zero_add, h, if_false, Option.map_some]

/-- A composition with a non-zero sum is rescaled: every entry by the same factor, and the result sums to 100. -/
theorem C32_normalized [DecidableEq K] {n : ℕ} (c : Fin n → K) (h : ∑ i, c i ≠ 0) :
    ∃ d : Fin n → K, (∀ i, normalize c i = some (d i)) ∧ ∑ i, d i = 100 ∧ ∀ i j, c i * d j = c j * d i := by
  refine ⟨fun i => c i / (∑ j, c j) * 100, normalize_eq c h, ?_, fun i j => by ring⟩
  rw [← sum_mul, ← sum_div, div_self h, one_mul]

/-- Normalising a normalised composition changes nothing. -/
theorem C32_idempotent [DecidableEq K] [CharZero K] {n : ℕ} (c d : Fin n → K) (h : ∑ i, c i ≠ 0)
    (hd : ∀ i, normalize c i = some (d i)) (i : Fin n) : normalize d i = some (d i) := by
  obtain ⟨d', h1, h2, _⟩ := C32_normalized c h
  have e : d' = d := by
    funext i
    have := h1 i
    rw [hd i] at this
    exact (Option.some.inj this).symm
  rw [e] at h2
  rw [normalize_eq d (by rw [h2]; norm_num), h2]
  congr 1
  field_simp

/-- With a zero sum every entry becomes an infinity or not-a-number. -/
theorem C32_zero_sum [DecidableEq K] {n : ℕ} (c : Fin n → K) (h : ∑ i, c i = 0) (i : Fin n) : normalize c i = none := by
  unfold normalize div?
  simp only [loop_add, zero_add, h, if_true, Option.map_none]

/-! ### The hypotheses are met -/

/-- Two oxides, two liquid components: SiO2 and X2SiO4 from SiO2 and X2O. -/
def exT : Tables 2 2 ℚ := ⟨![60, 40], ![![1, 0], ![-1, 1]], ![2, 4]⟩
def exInv : Fin 2 → Fin 2 → ℚ := ![![1, 0], ![1, 1]]

example : ∀ j k, ∑ i, exT.oxToLiq j i * exInv i k = if j = k then 1 else 0 := by decide +kernel
example : ∀ i, exT.mw i ≠ 0 := by decide +kernel
/-- 60 g SiO2 and 20 g X2O: 1/2 mol of each component, oxygen 2 instead of 3. -/
example : (fresh exT ![60, 20] ⟨0, 0, 0, 7⟩).liq = ![1 / 2, 1 / 2] ∧ (fresh exT ![60, 20] ⟨0, 0, 0, 7⟩).oxygen = 2 := by
  constructor <;> decide +kernel
example : ∑ i, (![45, 3, 2] : Fin 3 → ℚ) i ≠ 0 := by decide +kernel
example : ∀ k : Fin 2, (fun _ => 0 : Fin 2 → ℚ) k + ∑ i, (fresh exT ![60, 20] ⟨0, 0, 0, 7⟩).liq i * exInv i k =
    (fresh exT ![60, 20] ⟨0, 0, 0, 7⟩).bulk k := by decide +kernel

end Magma.Iface.Composition
