import Verif.Prelude
import Verif.Engine.AddDrop

/-!
Model of `updateBulkADB`, /repo/sources/silmin_support.c 1160-1209: the bookkeeping of the liquid mass
and of log10 fO2 after every change of the assemblage (silmin.c 493, 558, 618, 1597, 2229;
liquidus.c 264, 268).

Simplifications: `double` is an ordered field; the speciation `conLiq(FIRST, SEVENTH)` and the
subsolidus oxygen potential (divided by `R T ln 10`) are arbitrary functions.
-/

namespace Magma.Engine.Bulk

variable {nc nlc : ℕ} {K : Type} [Field K] [LinearOrder K]

/-- The members of `SilminState` read and written by the update. `buffered` is
`fo2Path != FO2_NONE`. -/
structure St (nlc : ℕ) (K : Type) where
  liquids : List (Fin nlc → K)
  liquidMass : K
  buffered : Bool
  fo2 : K

/-- silmin_support.c 1172-1173: moles of oxide `i` in all liquids, as accumulated by the loops. -/
def oxideMoles (liqToOx : Fin nlc → Fin nc → K) (ls : List (Fin nlc → K)) (i : Fin nc) : K :=
  ls.foldl (fun acc l => (List.finRange nlc).foldl (fun a j => a + l j * liqToOx j i) acc) 0

/-- silmin_support.c 1178-1183: the mean of the liquids' log10 fO2. -/
def meanFo2 (liqToOx : Fin nlc → Fin nc → K) (logfO2 : (Fin nc → K) → K)
    (ls : List (Fin nlc → K)) : K :=
  ls.foldl (fun acc l =>
    acc + logfO2 (fun i => (List.finRange nlc).foldl (fun a j => a + l j * liqToOx j i) 0)) 0
    / (ls.length : K)

/-- silmin_support.c 1160-1209. -/
def update (liqToOx : Fin nlc → Fin nc → K) (mw : Fin nc → K) (logfO2 : (Fin nc → K) → K)
    (subsolidus : K) (s : St nlc K) : St nlc K :=
  let hasLiquid := s.liquidMass ≠ 0
  let temporary : Fin nc → K := fun i => if hasLiquid then oxideMoles liqToOx s.liquids i else 0
  { s with
    liquidMass := (List.finRange nc).foldl (fun sum i => sum + temporary i * mw i) 0
    fo2 := if s.buffered then s.fo2
      else if hasLiquid then meanFo2 liqToOx logfO2 s.liquids else subsolidus }

/-! ### C14 -/

/-- Specification: mass of a liquid from the molecular weights of its components. -/
def liquidGrams (mwLiq : Fin nlc → K) (l : Fin nlc → K) : K := ∑ j, l j * mwLiq j

omit [LinearOrder K] in
theorem foldl_add_sum {n : ℕ} (f : Fin n → K) (a : K) :
    (List.finRange n).foldl (fun acc i => acc + f i) a = a + ∑ i, f i := by
  have h : ∀ (l : List (Fin n)) (a : K),
      l.foldl (fun acc i => acc + f i) a = a + (l.map f).sum := by
    intro l
    induction l with
    | nil => intro a; simp
    | cons x l ih => intro a; simp only [List.foldl_cons, List.map_cons, List.sum_cons]; rw [ih]; ring
  rw [h, ← List.ofFn_eq_map, List.sum_ofFn]

omit [LinearOrder K] in
theorem oxideMoles_eq (L : Fin nlc → Fin nc → K) (ls : List (Fin nlc → K)) (i : Fin nc) :
    oxideMoles L ls i = (ls.map fun l => ∑ j, l j * L j i).sum := by
  unfold oxideMoles
  have h : ∀ (ls : List (Fin nlc → K)) (a : K), ls.foldl (fun acc l =>
      (List.finRange nlc).foldl (fun a j => a + l j * L j i) acc) a
      = a + (ls.map fun l => ∑ j, l j * L j i).sum := by
    intro ls
    induction ls with
    | nil => intro a; simp
    | cons l ls ih =>
      intro a
      simp only [List.foldl_cons, List.map_cons, List.sum_cons]
      rw [ih, foldl_add_sum]
      ring
  rw [h, zero_add]

omit [LinearOrder K] in
/-- Sum over oxides of a sum over a list. -/
theorem sum_list_comm {α : Type} (ls : List α) (f : α → Fin nc → K) :
    ∑ i, (ls.map fun l => f l i).sum = (ls.map fun l => ∑ i, f l i).sum := by
  induction ls with
  | nil => simp
  | cons l ls ih => simp [Finset.sum_add_distrib, ih]

/-- The reported liquid mass is the sum of the masses of the coexisting liquids, computed from the
molecular weights of the liquid components, provided those are the weights of the oxides they
contain and there was liquid before. -/
theorem C14_liquid_mass (liqToOx : Fin nlc → Fin nc → K) (mw : Fin nc → K)
    (logfO2 : (Fin nc → K) → K) (subsolidus : K) (s : St nlc K) (mwLiq : Fin nlc → K)
    (hmw : ∀ j, mwLiq j = ∑ i, liqToOx j i * mw i) (hl : s.liquidMass ≠ 0) :
    (update liqToOx mw logfO2 subsolidus s).liquidMass = (s.liquids.map (liquidGrams mwLiq)).sum := by
  simp only [update, hl, ne_eq, not_false_eq_true, if_true]
  rw [foldl_add_sum, zero_add]
  have : ∀ i, oxideMoles liqToOx s.liquids i * mw i =
      (s.liquids.map fun l => (∑ j, l j * liqToOx j i) * mw i).sum := by
    intro i
    rw [oxideMoles_eq, ← List.sum_map_mul_right]
  rw [Finset.sum_congr rfl fun i _ => this i, sum_list_comm]
  congr 1
  refine List.map_congr_left fun l _ => ?_
  simp only [liquidGrams, hmw, Finset.mul_sum, Finset.sum_mul]
  rw [Finset.sum_comm]
  exact Finset.sum_congr rfl fun _ _ => Finset.sum_congr rfl fun _ _ => by ring

/-- Oxide `i` in the solids. -/
def solidMoles (solids : List ((Fin nc → K) × K)) (i : Fin nc) : K :=
  (solids.map fun r => r.2 * r.1 i).sum

/-- If the bulk composition is the sum over liquids and solids (rows `(solToOx, moles)` with their
molecular weights), the liquid mass is the bulk mass minus the solid mass. -/
theorem C14_bulk_minus_solids (liqToOx : Fin nlc → Fin nc → K) (mw : Fin nc → K)
    (logfO2 : (Fin nc → K) → K) (subsolidus : K) (s : St nlc K) (bulk : Fin nc → K)
    (solids : List ((Fin nc → K) × K)) (solidMw : (Fin nc → K) → K)
    (hsw : ∀ r ∈ solids, solidMw r.1 = ∑ i, r.1 i * mw i)
    (hb : ∀ i, bulk i = (s.liquids.map fun l => ∑ j, l j * liqToOx j i).sum + solidMoles solids i)
    (hl : s.liquidMass ≠ 0) :
    (update liqToOx mw logfO2 subsolidus s).liquidMass =
      ∑ i, bulk i * mw i - (solids.map fun r => r.2 * solidMw r.1).sum := by
  simp only [update, hl, ne_eq, not_false_eq_true, if_true]
  rw [foldl_add_sum, zero_add]
  have h1 : (solids.map fun r => r.2 * solidMw r.1).sum = ∑ i, solidMoles solids i * mw i := by
    have : ∀ i, solidMoles solids i * mw i = (solids.map fun r => r.2 * r.1 i * mw i).sum := by
      intro i; rw [solidMoles, ← List.sum_map_mul_right]
    rw [Finset.sum_congr rfl fun i _ => this i, sum_list_comm]
    congr 1
    refine List.map_congr_left fun r hr => ?_
    rw [hsw r hr, Finset.mul_sum]
    exact Finset.sum_congr rfl fun _ _ => by ring
  rw [h1, ← Finset.sum_sub_distrib]
  refine Finset.sum_congr rfl fun i _ => ?_
  rw [hb i, oxideMoles_eq]
  ring

/-- Once the mass is zero the liquid is invisible: whatever the liquid compositions hold, the update
keeps the mass at zero. -/
theorem C14_zero_is_sticky (liqToOx : Fin nlc → Fin nc → K) (mw : Fin nc → K)
    (logfO2 : (Fin nc → K) → K) (subsolidus : K) (s : St nlc K) (hl : s.liquidMass = 0) :
    (update liqToOx mw logfO2 subsolidus s).liquidMass = 0 := by
  simp only [update, hl, ne_eq, not_true_eq_false, if_false]
  rw [foldl_add_sum]
  simp

/-- The update does not alter compositions, the buffer switch, or log10 fO2 when a buffer is set;
without a buffer the reported log10 fO2 is the arithmetic mean over the liquids, each evaluated at
its own oxide composition. -/
theorem C14_fo2 (liqToOx : Fin nlc → Fin nc → K) (mw : Fin nc → K)
    (logfO2 : (Fin nc → K) → K) (subsolidus : K) (s : St nlc K) :
    (update liqToOx mw logfO2 subsolidus s).liquids = s.liquids ∧
    (s.buffered = true → (update liqToOx mw logfO2 subsolidus s).fo2 = s.fo2) ∧
    (s.buffered = false → s.liquidMass ≠ 0 →
      (update liqToOx mw logfO2 subsolidus s).fo2 =
        (s.liquids.map fun l => logfO2 fun i => ∑ j, l j * liqToOx j i).sum / s.liquids.length) ∧
    (s.buffered = false → s.liquidMass = 0 →
      (update liqToOx mw logfO2 subsolidus s).fo2 = subsolidus) := by
  refine ⟨rfl, fun h => by simp [update, h], fun h hl => ?_, fun h hl => by simp [update, h, hl]⟩
  simp only [update, h, hl, ne_eq, not_false_eq_true, if_true, meanFo2]
  have hh : ∀ (ls : List (Fin nlc → K)) (a : K), ls.foldl (fun acc l =>
      acc + logfO2 (fun i => (List.finRange nlc).foldl (fun a j => a + l j * liqToOx j i) 0)) a
      = a + (ls.map fun l => logfO2 fun i => ∑ j, l j * liqToOx j i).sum := by
    intro ls
    induction ls with
    | nil => intro a; simp
    | cons l ls ih =>
      intro a
      simp only [List.foldl_cons, List.map_cons, List.sum_cons]
      rw [ih]
      have : (fun i => (List.finRange nlc).foldl (fun a j => a + l j * liqToOx j i) 0) =
          fun i => ∑ j, l j * liqToOx j i := by
        funext i; rw [foldl_add_sum, zero_add]
      rw [this]
      ring
  rw [hh, zero_add]
  simp

/-- Two liquids over two oxides; the bulk contains a solid. -/
example :
    let s : St 2 ℚ := ⟨[![1, 2], ![3, 0]], 1, false, 0⟩
    let L : Fin 2 → Fin 2 → ℚ := ![![1, 0], ![1, 2]]
    (update L ![60, 40] (fun _ => -8) 0 s).liquidMass = 4 * 60 + 2 * (60 + 80) ∧
    (update L ![60, 40] (fun _ => -8) 0 s).fo2 = -8 := by
  decide +kernel

end Magma.Engine.Bulk
