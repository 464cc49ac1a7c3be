import Verif.Prelude

/-!
Model of the saturation evaluation (/repo/sources/evaluate_saturation.c 305-478) and of the
choice of the phase to nucleate (/repo/sources/silmin.c 682-692), and property C07.

Simplification: the affinity of a solution phase (`getAffinityAndComposition` and the pyroxene,
nepheline, kalsilite compromises) is an arbitrary number and composition carried by the candidate.
-/

namespace Magma.Engine

variable {K : Type} [Field K] [LinearOrder K]

/-- How the affinity of a PHASE entry is obtained. `pure`: molar Gibbs energy `g` and, per liquid
component, `(solToLiq, muLiq, liquidComp)` (evaluate_saturation.c 313-327). `soln`: the outcome of
the solution-phase solver, `na` composition entries (evaluate_saturation.c 329-446). -/
inductive CandKind (K : Type)
  | pure (g : K) (row : List (K × K × K))
  | soln (aff : K) (comp : List K)

/-- A PHASE entry of `solids` with the state the evaluation reads: number of in/out cycles
(`cylSolids[i]`) and moles of the first copy (`solidComp[i][0]`). -/
structure Cand (K : Type) where
  kind : CandKind K
  cyl : ℕ
  amount : K

/-- evaluate_saturation.c 316-325: subtract `solToLiq*muLiq`; a needed but absent liquid component
sets the affinity to 0 and leaves the loop. -/
def pureAffinity : List (K × K × K) → K → K
  | [], g => g
  | (c, mu, n) :: rest, g =>
    if c ≠ 0 then (if n ≠ 0 then pureAffinity rest (g - c * mu) else 0) else pureAffinity rest g

/-- `CYL`, evaluate_saturation.c 143. -/
def cylLimit : ℕ := 2

/-- evaluate_saturation.c 309-447 for one PHASE entry: the values written to
`rSol[i], rSol[i+1], ...`. `inc` is `incSolids[j]`. An entry that is not evaluated gets zeros. -/
def evalCand (inc : Bool) (c : Cand K) : K × List K :=
  let admitted := inc && decide (c.cyl < cylLimit) && decide (c.amount = 0)
  match c.kind with
  | .pure g row => (if admitted then pureAffinity row g else 0, [])
  | .soln aff comp => if admitted then (aff, comp) else (0, comp.map fun _ => 0)

/-- evaluate_saturation.c 308-450: the loop over the table; `j` counts PHASE entries. The result is
the flat array `rSol` with a mark telling PHASE rows from component rows (`solids[i].type`). -/
def evalTable (inc : ℕ → Bool) : ℕ → List (Cand K) → List (Bool × K)
  | _, [] => []
  | j, c :: rest =>
    let r := evalCand (inc j) c
    ((true, r.1) :: r.2.map fun y => (false, y)) ++ evalTable inc (j + 1) rest

/-- silmin.c 685-689: strict running minimum from 0.0 over the negative PHASE entries. State is
`(minAffinity, index)`, `none` is `-9999`. -/
def scan : ℕ → List (Bool × K) → K × Option ℕ → K × Option ℕ
  | _, [], s => s
  | i, (isPhase, y) :: rest, s =>
    scan (i + 1) rest (if isPhase && decide (y < 0) && decide (y < s.1) then (y, some i) else s)

/-- What ADD_PHASE adds: silmin.c 690-692, 782. -/
inductive Choice
  | solid (i : ℕ)
  | liquid
deriving DecidableEq, Repr

/-- silmin.c 683-692, 782: a liquid with a still lower affinity wins if it is admitted
(`incSolids[npc]`). An index that stayed `-9999` also takes the liquid branch. -/
def choose (tbl : List (Bool × K)) (yLiq : K) (incLiq : Bool) : Choice :=
  let s := scan 0 tbl (0, none)
  if yLiq < s.1 ∧ incLiq = true then .liquid
  else match s.2 with
    | some i => .solid i
    | none => .liquid

/-- evaluate_saturation.c 305, 327, 444, 478: `hasSupersat`. `liqAff` is the liquid affinity as
evaluated when there is no liquid and it is admitted, else 0. -/
def hasSupersat (tbl : List (Bool × K)) (yLiq : K) : Bool :=
  tbl.any (fun r => r.1 && decide (r.2 < 0)) || decide (yLiq < 0)

/-! ### Specification -/

/-- The chemical affinity of a pure phase: `g - Σ solToLiq·mu`, meaningless (0) when a liquid component it
needs is absent. -/
def PureAffinitySpec (row : List (K × K × K)) (g a : K) : Prop :=
  ((∃ r ∈ row, r.1 ≠ 0 ∧ r.2.2 = 0) ∧ a = 0) ∨
  ((∀ r ∈ row, r.1 ≠ 0 → r.2.2 ≠ 0) ∧ a = g - (row.map fun r => r.1 * r.2.1).sum)

/-- Affinity of a candidate. -/
def affinity (c : Cand K) : K :=
  match c.kind with
  | .pure g row => pureAffinity row g
  | .soln aff _ => aff

/-- May this phase be nucleated: not suppressed by the user, not already cycled twice, absent. -/
def Admitted (inc : ℕ → Bool) (k : ℕ) (c : Cand K) : Prop :=
  inc k = true ∧ c.cyl < 2 ∧ c.amount = 0

/-- Number of table rows of a phase. -/
def rowsOf (c : Cand K) : ℕ :=
  match c.kind with
  | .pure _ _ => 1
  | .soln _ comp => 1 + comp.length

/-- Table index of the `k`-th phase. -/
def rowIndex (cs : List (Cand K)) (k : ℕ) : ℕ := ((cs.take k).map rowsOf).sum

/-! ### Proofs -/

theorem C07_pure_affinity (row : List (K × K × K)) (g : K) :
    PureAffinitySpec row g (pureAffinity row g) := by
  induction row generalizing g with
  | nil => right; simp [pureAffinity]
  | cons r row ih =>
    obtain ⟨c, mu, n⟩ := r
    unfold pureAffinity
    by_cases hc : c = 0
    · subst hc
      simp only [ne_eq, not_true_eq_false, if_false]
      rcases ih g with ⟨⟨r, hr, h⟩, h0⟩ | ⟨h, h0⟩
      · exact Or.inl ⟨⟨r, by simp [hr], h⟩, h0⟩
      · refine Or.inr ⟨?_, ?_⟩
        · intro r hr
          simp only [List.mem_cons] at hr
          rcases hr with rfl | hr
          · simp
          · exact h r hr
        · rw [h0]; simp
    · by_cases hn : n = 0
      · left
        simp [hc, hn]
      · simp only [ne_eq, hc, hn, not_false_eq_true, if_true]
        rcases ih (g - c * mu) with ⟨⟨r, hr, h⟩, h0⟩ | ⟨h, h0⟩
        · exact Or.inl ⟨⟨r, by simp [hr], h⟩, h0⟩
        · refine Or.inr ⟨?_, ?_⟩
          · intro r hr
            simp only [List.mem_cons] at hr
            rcases hr with rfl | hr
            · intro _; exact hn
            · exact h r hr
          · rw [h0]; simp only [List.map_cons, List.sum_cons]; ring

theorem evalCand_fst (inc : ℕ → Bool) (k : ℕ) (c : Cand K) :
    (Admitted inc k c → (evalCand (inc k) c).1 = affinity c) ∧
    (¬ Admitted inc k c → (evalCand (inc k) c).1 = 0) := by
  obtain ⟨kind, cyl, amount⟩ := c
  unfold Admitted evalCand affinity cylLimit
  have hiff : (inc k && decide (cyl < 2) && decide (amount = 0)) = true ↔
      (inc k = true ∧ cyl < 2 ∧ amount = 0) := by simp [and_assoc]
  constructor
  · intro h
    have h' := hiff.2 h
    cases kind <;> simp only [h', if_true]
  · intro h
    have h' : (inc k && decide (cyl < 2) && decide (amount = 0)) ≠ true := fun e => h (hiff.1 e)
    cases kind <;> simp only [if_neg h']

theorem evalCand_rows (b : Bool) (c : Cand K) : 1 + (evalCand b c).2.length = rowsOf c := by
  unfold evalCand rowsOf
  cases h : c.kind <;> simp only
  · simp
  · split <;> simp

/-- Every PHASE row of the evaluated table is the row of some phase `k` and holds its evaluated
affinity. -/
theorem evalTable_rows (inc : ℕ → Bool) (cs : List (Cand K)) (j : ℕ) :
    (∀ i y, (evalTable inc j cs)[i]? = some (true, y) →
      ∃ k c, cs[k]? = some c ∧ i = rowIndex cs k ∧ y = (evalCand (inc (j + k)) c).1) ∧
    (∀ k c, cs[k]? = some c →
      (evalTable inc j cs)[rowIndex cs k]? = some (true, (evalCand (inc (j + k)) c).1)) := by
  induction cs generalizing j with
  | nil => simp [evalTable]
  | cons c cs ih =>
    obtain ⟨i1, i2⟩ := ih (j + 1)
    have hlen : ((true, (evalCand (inc j) c).1) ::
        (evalCand (inc j) c).2.map fun y => (false, y)).length = rowsOf c := by
      rw [← evalCand_rows (inc j) c]; simp; omega
    constructor
    · intro i y h
      simp only [evalTable] at h
      by_cases hi : i < rowsOf c
      · rw [List.getElem?_append_left (by rw [hlen]; exact hi)] at h
        cases i with
        | zero =>
          refine ⟨0, c, rfl, by simp [rowIndex], ?_⟩
          simp only [List.getElem?_cons_zero, Option.some.injEq, Prod.mk.injEq, true_and] at h
          exact h.symm
        | succ i => simp at h
      · rw [List.getElem?_append_right (by rw [hlen]; omega), hlen] at h
        obtain ⟨k, c', hk, hi', hy⟩ := i1 _ _ h
        refine ⟨k + 1, c', by simpa using hk, ?_, ?_⟩
        · simp only [rowIndex, List.take_succ_cons, List.map_cons, List.sum_cons]
          simp only [rowIndex] at hi'
          omega
        · rw [hy]; congr 3; omega
    · intro k c' hk
      simp only [evalTable]
      cases k with
      | zero =>
        simp only [List.getElem?_cons_zero, Option.some.injEq] at hk
        subst hk
        simp [rowIndex]
      | succ k =>
        have := i2 k c' (by simpa using hk)
        have e : rowIndex (c :: cs) (k + 1) = rowsOf c + rowIndex cs k := by
          simp [rowIndex]
        rw [e, List.getElem?_append_right (by rw [hlen]; omega), hlen,
          show rowsOf c + rowIndex cs k - rowsOf c = rowIndex cs k by omega, this]
        rw [show j + 1 + k = j + (k + 1) by omega]

/-- Invariant of the scan. -/
theorem scan_spec (tbl : List (Bool × K)) (i0 : ℕ) (s : K × Option ℕ) :
    let r := scan i0 tbl s
    r.1 ≤ s.1 ∧
    (∀ (i : ℕ) (y : K), tbl[i]? = some (true, y) → y < 0 → r.1 ≤ y) ∧
    ((r = s ∧ ∀ (i : ℕ) (y : K), tbl[i]? = some (true, y) → y < 0 → s.1 ≤ y) ∨
      ∃ (i : ℕ) (y : K), tbl[i]? = some (true, y) ∧ y < 0 ∧ r = (y, some (i0 + i)) ∧ y < s.1 ∧
        ∀ i' < i, ∀ y', tbl[i']? = some (true, y') → y' < 0 → y < y') := by
  induction tbl generalizing i0 s with
  | nil => simp [scan]
  | cons row tbl ih =>
    obtain ⟨p, y⟩ := row
    simp only [scan]
    by_cases hc : (p && decide (y < 0) && decide (y < s.1)) = true
    · rw [if_pos hc]
      simp only [Bool.and_eq_true, decide_eq_true_eq] at hc
      obtain ⟨⟨hp, hy⟩, hys⟩ := hc
      subst hp
      obtain ⟨h1, h2, h3⟩ := ih (i0 + 1) (y, some i0)
      refine ⟨h1.trans hys.le, ?_, ?_⟩
      · intro i y' hi hy'
        cases i with
        | zero =>
          simp only [List.getElem?_cons_zero, Option.some.injEq, Prod.mk.injEq, true_and] at hi
          rw [← hi]; exact h1
        | succ i => exact h2 i y' (by simpa using hi) hy'
      · right
        rcases h3 with ⟨h3, h4⟩ | ⟨i, y', hi, hy', hr, hlt, hmin⟩
        · exact ⟨0, y, rfl, hy, by rw [h3]; simp, hys, by simp⟩
        · refine ⟨i + 1, y', by simpa using hi, hy', by rw [hr]; congr 2; omega,
            lt_trans hlt hys, ?_⟩
          intro i' hi' y'' h'' hneg
          cases i' with
          | zero =>
            simp only [List.getElem?_cons_zero, Option.some.injEq, Prod.mk.injEq, true_and] at h''
            rw [← h'']; exact hlt
          | succ i' => exact hmin i' (by omega) y'' (by simpa using h'') hneg
    · rw [if_neg hc]
      obtain ⟨h1, h2, h3⟩ := ih (i0 + 1) s
      have hskip : ∀ z, p = true → y = z → z < 0 → s.1 ≤ z := by
        intro z hp hz hneg
        subst hp hz
        simp only [Bool.true_and, Bool.and_eq_true, decide_eq_true_eq, not_and, not_lt] at hc
        exact hc hneg
      refine ⟨h1, ?_, ?_⟩
      · intro i y' hi hy'
        cases i with
        | zero =>
          simp only [List.getElem?_cons_zero, Option.some.injEq, Prod.mk.injEq] at hi
          exact h1.trans (hskip y' hi.1 hi.2 hy')
        | succ i => exact h2 i y' (by simpa using hi) hy'
      · rcases h3 with ⟨h3, h4⟩ | ⟨i, y', hi, hy', hr, hlt, hmin⟩
        · left
          refine ⟨h3, ?_⟩
          intro i y' hi hy'
          cases i with
          | zero =>
            simp only [List.getElem?_cons_zero, Option.some.injEq, Prod.mk.injEq] at hi
            exact hskip y' hi.1 hi.2 hy'
          | succ i => exact h4 i y' (by simpa using hi) hy'
        · right
          refine ⟨i + 1, y', by simpa using hi, hy', by rw [hr]; congr 2; omega,
            hlt, ?_⟩
          intro i' hi' y'' h'' hneg
          cases i' with
          | zero =>
            simp only [List.getElem?_cons_zero, Option.some.injEq, Prod.mk.injEq] at h''
            exact lt_of_lt_of_le hlt (hskip y'' h''.1 h''.2 hneg)
          | succ i' => exact hmin i' (by omega) y'' (by simpa using h'') hneg

/-- A phase is supersaturated when it is admitted and its affinity is negative. -/
def Supersaturated (inc : ℕ → Bool) (cs : List (Cand K)) (k : ℕ) (a : K) : Prop :=
  ∃ c, cs[k]? = some c ∧ Admitted inc k c ∧ affinity c = a ∧ a < 0

theorem row_supersat (inc : ℕ → Bool) (cs : List (Cand K)) (i : ℕ) (y : K) (hy : y < 0) :
    (evalTable inc 0 cs)[i]? = some (true, y) ↔
      ∃ k, i = rowIndex cs k ∧ Supersaturated inc cs k y := by
  obtain ⟨h1, h2⟩ := evalTable_rows inc cs 0
  simp only [zero_add] at h1 h2
  constructor
  · intro h
    obtain ⟨k, c, hk, hi, hyc⟩ := h1 i y h
    have := evalCand_fst inc k c
    have hadm : Admitted inc k c := by
      by_contra hn
      rw [this.2 hn] at hyc
      exact absurd hy (by rw [hyc]; exact lt_irrefl 0)
    exact ⟨k, hi, c, hk, hadm, by rw [hyc, this.1 hadm], hy⟩
  · rintro ⟨k, rfl, c, hk, hadm, ha, -⟩
    rw [h2 k c hk, (evalCand_fst inc k c).1 hadm, ha]

theorem rowIndex_lt (cs : List (Cand K)) {k k' : ℕ} (h : k < k') (hk : k < cs.length) :
    rowIndex cs k < rowIndex cs k' := by
  induction cs generalizing k k' with
  | nil => simp at hk
  | cons c cs ih =>
    have hpos : 0 < rowsOf c := by unfold rowsOf; cases c.kind <;> simp
    cases k' with
    | zero => omega
    | succ k' =>
      cases k with
      | zero => simp only [rowIndex, List.take_zero, List.map_nil, List.sum_nil,
          List.take_succ_cons, List.map_cons, List.sum_cons]; omega
      | succ k =>
        have := ih (k := k) (k' := k') (by omega) (by simpa using hk)
        simp only [rowIndex, List.take_succ_cons, List.map_cons, List.sum_cons] at this ⊢
        omega

/-- **C07.** If a solid is chosen for nucleation it is the table row of an admitted supersaturated
phase whose affinity is minimal among all admitted phases, strictly smaller than that of every
admitted phase earlier in the table, and not above the affinity of an admitted liquid. If liquid is
chosen although some admitted phase is supersaturated, the liquid is admitted and its affinity is
below that of every admitted phase. -/
theorem C07_nucleation_choice (inc : ℕ → Bool) (cs : List (Cand K)) (yLiq : K) (incLiq : Bool) :
    (∀ i, choose (evalTable inc 0 cs) yLiq incLiq = .solid i →
      ∃ k a, i = rowIndex cs k ∧ Supersaturated inc cs k a ∧
        (∀ k' c', cs[k']? = some c' → Admitted inc k' c' → a ≤ affinity c') ∧
        (∀ k' < k, ∀ c', cs[k']? = some c' → Admitted inc k' c' → a < affinity c') ∧
        (incLiq = true → a ≤ yLiq)) ∧
    (choose (evalTable inc 0 cs) yLiq incLiq = .liquid →
      ∀ k a, Supersaturated inc cs k a → incLiq = true ∧ yLiq < a) := by
  obtain ⟨-, hall, hcase⟩ := scan_spec (evalTable inc 0 cs) 0 ((0 : K), (none : Option ℕ))
  set r := scan 0 (evalTable inc 0 cs) ((0 : K), (none : Option ℕ)) with hr
  constructor
  · intro i hi
    simp only [choose, ← hr] at hi
    rcases hcase with ⟨h, -⟩ | ⟨i1, y, hi1, hy, hreq, hlt, hmin⟩
    · rw [h] at hi; split at hi <;> simp at hi
    · rw [hreq] at hi
      simp only at hi
      split at hi
      · cases hi
      · rename_i hliq
        simp only [Choice.solid.injEq, zero_add] at hi
        subst hi
        obtain ⟨k, hk, hsup⟩ := (row_supersat inc cs i1 y hy).1 hi1
        have hle : ∀ k' c', cs[k']? = some c' → Admitted inc k' c' → y ≤ affinity c' := by
          intro k' c' hk' hadm
          by_cases hneg : affinity c' < 0
          · have := hall (rowIndex cs k') (affinity c')
              ((row_supersat inc cs _ _ hneg).2 ⟨k', rfl, c', hk', hadm, rfl, hneg⟩) hneg
            rw [hreq] at this; exact this
          · exact hy.le.trans (not_lt.1 hneg)
        refine ⟨k, y, hk, hsup, hle, ?_, ?_⟩
        · intro k' hk' c' hc' hadm
          by_cases hneg : affinity c' < 0
          · refine hmin (rowIndex cs k') ?_ _
              ((row_supersat inc cs _ _ hneg).2 ⟨k', rfl, c', hc', hadm, rfl, hneg⟩) hneg
            rw [hk]
            exact rowIndex_lt cs hk' (by
              by_contra hh
              rw [List.getElem?_eq_none (not_lt.1 hh)] at hc'
              cases hc')
          · exact lt_of_lt_of_le hy (not_lt.1 hneg)
        · intro hinc
          by_contra hh
          exact hliq ⟨not_le.1 hh, hinc⟩
  · intro hch k a hsup
    obtain ⟨c, hk, hadm, ha, hneg⟩ := hsup
    have hrow := (row_supersat inc cs _ _ hneg).2 ⟨k, rfl, c, hk, hadm, ha, hneg⟩
    have hle := hall _ _ hrow hneg
    simp only [choose, ← hr] at hch
    split at hch
    · rename_i h
      exact ⟨h.2, lt_of_lt_of_le h.1 hle⟩
    · rcases hcase with ⟨h, h4⟩ | ⟨i1, y, hi1, hy, hreq, hlt, hmin⟩
      · exact absurd (h4 _ _ hrow hneg) (not_le.2 hneg)
      · rw [hreq] at hch; cases hch

/-- **C07 (suppression).** A suppressed phase is never the one chosen. -/
theorem C07_suppressed_never_chosen (inc : ℕ → Bool) (cs : List (Cand K)) (yLiq : K)
    (incLiq : Bool) (k : ℕ) (hk : k < cs.length) (hsup : inc k = false) :
    choose (evalTable inc 0 cs) yLiq incLiq ≠ .solid (rowIndex cs k) := by
  intro h
  obtain ⟨k', a, hi, ⟨c, hc, hadm, -⟩, -⟩ := (C07_nucleation_choice inc cs yLiq incLiq).1 _ h
  have hk' : k' < cs.length := by
    by_contra hh
    rw [List.getElem?_eq_none (not_lt.1 hh)] at hc
    cases hc
  have : k = k' := by
    rcases lt_trichotomy k k' with hlt | he | hgt
    · exact absurd hi (rowIndex_lt cs hlt hk).ne
    · exact he
    · exact absurd hi (rowIndex_lt cs hgt hk').ne'
  subst this
  rw [hadm.1] at hsup
  cases hsup

/-- **C07 (detection).** The evaluation reports supersaturation exactly when some admitted phase
has negative affinity, or the liquid has. -/
theorem C07_supersaturation_detected (inc : ℕ → Bool) (cs : List (Cand K)) (yLiq : K) :
    hasSupersat (evalTable inc 0 cs) yLiq = true ↔
      (∃ k a, Supersaturated inc cs k a) ∨ yLiq < 0 := by
  simp only [hasSupersat, Bool.or_eq_true, decide_eq_true_eq, List.any_eq_true, Bool.and_eq_true]
  refine or_congr_left ?_
  constructor
  · rintro ⟨⟨p, y⟩, hmem, hp, hy⟩
    simp only at hp hy
    subst hp
    obtain ⟨i, hi⟩ := List.getElem?_of_mem hmem
    obtain ⟨k, -, h⟩ := (row_supersat inc cs i y hy).1 hi
    exact ⟨k, y, h⟩
  · rintro ⟨k, a, h⟩
    obtain ⟨c, hc, hadm, ha, hneg⟩ := h
    have := (row_supersat inc cs _ a hneg).2 ⟨k, rfl, c, hc, hadm, ha, hneg⟩
    exact ⟨(true, a), List.mem_of_getElem? this, rfl, hneg⟩

/-- Four phases: a suppressed one with the lowest affinity, a solution, a tie and a present one. -/
def demoCands : List (Cand ℚ) :=
  [⟨.pure (-100) [], 0, 0⟩, ⟨.soln (-7) [1/2, 1/2], 0, 0⟩,
   ⟨.pure 3 [(2, 5, 1), (0, 9, 0)], 1, 0⟩, ⟨.soln (-50) [1], 0, 1⟩]

example : choose (evalTable (fun j => j != 0) 0 demoCands) (-1) true = .solid 1 := by decide +kernel
example : choose (evalTable (fun j => j != 0) 0 demoCands) (-8) true = .liquid := by decide +kernel
example : Supersaturated (fun j => j != 0) demoCands 1 (-7) :=
  ⟨_, rfl, ⟨rfl, by decide, rfl⟩, rfl, by norm_num⟩
example : rowIndex demoCands 2 = 4 := by decide

end Magma.Engine
