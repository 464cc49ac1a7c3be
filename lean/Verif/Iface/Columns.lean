import Mathlib.Data.List.Count
import Mathlib.Data.List.Range
import Mathlib.Data.List.Basic
import Mathlib.Tactic.Common
import Mathlib.Tactic.FinCases
import Mathlib.Data.Fintype.Basic

/-!
Layout of the result workbook, /repo/src/xlsx_writer.cpp 58-413: which column each quantity is written to. A later write to
the same cell replaces the earlier one. Only columns are modelled; the cells hold labels of quantities instead of numbers.
-/

namespace Magma.Iface.Columns

/-- Quantities of the sheet "System". -/
inductive Q where
  /-- Index, Mode, T, P, ..., m (assim): xlsx_writer.cpp 17-33 -/
  | fixed (k : ℕ)
  | bulk (i : ℕ)
  | phase (i : ℕ)
  | frac (i : ℕ)
  | fracLiq
  | assimT
  | assim (i : ℕ)
  | assimLiqMass
  | assimOx (i : ℕ)
deriving DecidableEq

/-- What is known before writing: `nc`, which phases exist, were fractionated or assimilated in any step, and whether liquid
was, xlsx_writer.cpp 76-113. -/
structure Shape where
  nc : ℕ
  eq : List Bool
  fr : List Bool
  as : List Bool
  liqFrac : Bool
  liqAssim : Bool

/-- `START`, xlsx_writer.cpp 34. -/
def START : ℕ := 17

/-- The loops `for (i) if (exists[i]) write(row, c++, i)`, xlsx_writer.cpp 157-160, 163-165, 174-176, 234-238, 242-246, 257-261. -/
def walk (mk : ℕ → Q) : List Bool → ℕ → ℕ → List (ℕ × Q)
  | [], _, _ => []
  | true :: r, i, c => (c, mk i) :: walk mk r (i + 1) (c + 1)
  | false :: r, i, c => walk mk r (i + 1) c

def nEq (S : Shape) : ℕ := S.eq.count true
def nFr (S : Shape) : ℕ := S.fr.count true
def nAs (S : Shape) : ℕ := S.as.count true
def lf (S : Shape) : ℕ := if S.liqFrac then 1 else 0

/-- Header row, xlsx_writer.cpp 118-136, 152-184, in the order written; `liq_phases` is the running counter. The label
"liquid (assim)" is `assimLiqMass`. -/
def header (S : Shape) : List (ℕ × Q) :=
  (List.range 17).map (fun k => (k, Q.fixed k)) ++
  (List.range S.nc).map (fun i => (i + START, Q.bulk i)) ++
  walk .phase S.eq 0 (S.nc + START) ++
  walk .frac S.fr 0 (S.nc + START + nEq S) ++
  (if S.liqFrac then [(S.nc + START + (nEq S + nFr S), Q.fracLiq)] else []) ++
  (if 0 < nAs S ∨ S.liqAssim then [(S.nc + START + (nEq S + nFr S + lf S), Q.assimT)] else []) ++
  walk .assim S.as 0 (S.nc + START + (nEq S + nFr S + lf S + 1)) ++
  (if S.liqAssim then
    (List.range S.nc).flatMap fun i =>
      (if i = 0 then [(S.nc + START + (nEq S + nFr S + lf S + 1 + nAs S) + i, Q.assimLiqMass)] else []) ++
        [(S.nc + START + (nEq S + nFr S + lf S + 1 + nAs S) + i, Q.assimOx i)]
  else [])

/-- One data row, xlsx_writer.cpp 189-271. `hasT`: `assim_t` is a number; `hasL`: `assim_liq_mass` is. -/
def dataRow (S : Shape) (hasT hasL : Bool) : List (ℕ × Q) :=
  (List.range 17).map (fun k => (k, Q.fixed k)) ++
  (List.range S.nc).map (fun i => (i + START, Q.bulk i)) ++
  walk .phase S.eq 0 (S.nc + START) ++
  walk .frac S.fr 0 (S.nc + START + nEq S) ++
  (if S.liqFrac then [(S.nc + START + nEq S + nFr S, Q.fracLiq)] else []) ++
  (if hasT then [(S.nc + START + nEq S + nFr S + lf S, Q.assimT)] else []) ++
  walk .assim S.as 0 (S.nc + START + nEq S + nFr S + (if S.liqFrac then 2 else 1)) ++
  (if hasL then
    (List.range S.nc).flatMap fun i =>
      (if i = 0 then [(START + S.nc + nEq S + nFr S + lf S + nAs S, Q.assimLiqMass)] else []) ++
        [(START + S.nc + nEq S + nFr S + (if S.liqFrac then 2 else 1) + nAs S + i, Q.assimOx i)]
  else [])

/-- Contents of a cell after the writes: the last one counts. -/
def cell (ws : List (ℕ × Q)) (c : ℕ) : Option Q := (ws.reverse.find? fun w => w.1 = c).map Prod.snd

/-! ### Lemmas -/

theorem walk_cols (mk : ℕ → Q) : ∀ (fl : List Bool) (i c : ℕ), (walk mk fl i c).map Prod.fst = List.range' c (fl.count true)
  | [], _, _ => rfl
  | true :: r, i, c => by simp [walk, walk_cols mk r, List.range'_succ]
  | false :: r, i, c => by simp [walk, walk_cols mk r]

/-- The write of the label or the mass of the assimilated liquid. -/
def notLiq (w : ℕ × Q) : Bool := w.2 ≠ .assimLiqMass

theorem filter_walk (mk : ℕ → Q) (h : ∀ i, mk i ≠ .assimLiqMass) : ∀ (fl : List Bool) (i c : ℕ),
    (walk mk fl i c).filter notLiq = walk mk fl i c
  | [], _, _ => rfl
  | true :: r, i, c => by simp [walk, filter_walk mk h r, notLiq, h]
  | false :: r, i, c => by simp [walk, filter_walk mk h r]

theorem filter_flat (a b : ℕ) (n : ℕ) :
    ((List.range n).flatMap fun i => (if i = 0 then [(a + i, Q.assimLiqMass)] else []) ++ [(b + i, Q.assimOx i)]).filter notLiq =
      (List.range n).map fun i => (b + i, Q.assimOx i) := by
  rw [List.filter_flatMap]
  have : ∀ i, List.filter notLiq ((if i = 0 then [(a + i, Q.assimLiqMass)] else []) ++ [(b + i, Q.assimOx i)]) =
      [(b + i, Q.assimOx i)] := by
    intro i; by_cases h : i = 0 <;> simp [h, notLiq]
  simp only [this]
  induction List.range n with
  | nil => rfl
  | cons x l ih => simp [ih]

theorem filter_flat' (a b : ℕ) (n : ℕ) :
    ((List.range n).flatMap fun i => (if i = 0 then [(a, Q.assimLiqMass)] else []) ++ [(b + i, Q.assimOx i)]).filter notLiq =
      (List.range n).map fun i => (b + i, Q.assimOx i) := by
  rw [List.filter_flatMap]
  have : ∀ i, List.filter notLiq ((if i = 0 then [(a, Q.assimLiqMass)] else []) ++ [(b + i, Q.assimOx i)]) =
      [(b + i, Q.assimOx i)] := by
    intro i; by_cases h : i = 0 <;> simp [h, notLiq]
  simp only [this]
  induction List.range n with
  | nil => rfl
  | cons x l ih => simp [ih]

/-- The layout both rows follow, the assimilated liquid's own cell apart. -/
def layout (S : Shape) (hasT hasL : Bool) : List (ℕ × Q) :=
  (List.range 17).map (fun k => (k, Q.fixed k)) ++
  (List.range S.nc).map (fun i => (i + START, Q.bulk i)) ++
  walk .phase S.eq 0 (S.nc + START) ++
  walk .frac S.fr 0 (S.nc + START + nEq S) ++
  (if S.liqFrac then [(S.nc + START + nEq S + nFr S, Q.fracLiq)] else []) ++
  (if hasT then [(S.nc + START + nEq S + nFr S + lf S, Q.assimT)] else []) ++
  walk .assim S.as 0 (S.nc + START + nEq S + nFr S + lf S + 1) ++
  (if hasL then (List.range S.nc).map fun i => (S.nc + START + nEq S + nFr S + lf S + 1 + nAs S + i, Q.assimOx i) else [])

theorem filter_ite (p : Prop) [Decidable p] (a : ℕ × Q) (h : a.2 ≠ .assimLiqMass) :
    List.filter notLiq (if p then [a] else []) = if p then [a] else [] := by
  split_ifs <;> simp [notLiq, h]

theorem filter_map_ne {α : Type*} (f : α → ℕ × Q) (h : ∀ i, (f i).2 ≠ .assimLiqMass) (l : List α) :
    (l.map f).filter notLiq = l.map f := by
  rw [List.filter_eq_self]
  intro w hw
  obtain ⟨i, _, rfl⟩ := List.mem_map.mp hw
  simp [notLiq, h i]

theorem lf2 (S : Shape) : (if S.liqFrac = true then 2 else 1) = lf S + 1 := by unfold lf; split_ifs <;> rfl

theorem header_layout (S : Shape) :
    (header S).filter notLiq = layout S (decide (0 < nAs S ∨ S.liqAssim = true)) S.liqAssim := by
  unfold header layout
  simp only [List.filter_append]
  rw [filter_map_ne _ (fun i => by simp), filter_map_ne _ (fun i => by simp), filter_walk _ (fun i => by simp),
    filter_walk _ (fun i => by simp), filter_walk _ (fun i => by simp), filter_ite _ _ (by simp), filter_ite _ _ (by simp)]
  have e : List.filter notLiq (if S.liqAssim = true then
      (List.range S.nc).flatMap fun i =>
        (if i = 0 then [(S.nc + START + (nEq S + nFr S + lf S + 1 + nAs S) + i, Q.assimLiqMass)] else []) ++
          [(S.nc + START + (nEq S + nFr S + lf S + 1 + nAs S) + i, Q.assimOx i)] else []) =
      if S.liqAssim = true then
        (List.range S.nc).map fun i => (S.nc + START + (nEq S + nFr S + lf S + 1 + nAs S) + i, Q.assimOx i) else [] := by
    split_ifs
    · exact filter_flat _ _ _
    · rfl
  rw [e]
  simp only [Nat.add_assoc, decide_eq_true_eq]

theorem dataRow_layout (S : Shape) (hasT hasL : Bool) : (dataRow S hasT hasL).filter notLiq = layout S hasT hasL := by
  unfold dataRow layout
  simp only [List.filter_append, lf2]
  rw [filter_map_ne _ (fun i => by simp), filter_map_ne _ (fun i => by simp), filter_walk _ (fun i => by simp),
    filter_walk _ (fun i => by simp), filter_walk _ (fun i => by simp), filter_ite _ _ (by simp), filter_ite _ _ (by simp)]
  have e : List.filter notLiq (if hasL = true then
      (List.range S.nc).flatMap fun i =>
        (if i = 0 then [(START + S.nc + nEq S + nFr S + lf S + nAs S, Q.assimLiqMass)] else []) ++
          [(START + S.nc + nEq S + nFr S + (lf S + 1) + nAs S + i, Q.assimOx i)] else []) =
      if hasL = true then
        (List.range S.nc).map fun i => (START + S.nc + nEq S + nFr S + (lf S + 1) + nAs S + i, Q.assimOx i) else [] := by
    split_ifs
    · exact filter_flat' _ _ _
    · rfl
  rw [e]
  simp only [Nat.add_assoc, Nat.add_comm START, Nat.add_left_comm START]

theorem map_add_range' (a n : ℕ) : (List.range n).map (fun i => i + a) = List.range' a n := by
  rw [List.range'_eq_map_range]; exact List.map_congr_left fun i _ => Nat.add_comm _ _

/-- With everything present the columns of the layout are 0, 1, 2, ... without a gap. -/
theorem layout_cols (S : Shape) (hL : Bool) (hT : Bool) (h1 : hT = false → S.as.count true = 0 ∧ hL = false) :
    ∃ n, (layout S hT hL).map Prod.fst = List.range n := by
  refine ⟨17 + S.nc + nEq S + nFr S + lf S + (if hT then 1 else 0) + nAs S + (if hL then S.nc else 0), ?_⟩
  unfold layout
  simp only [List.map_append, List.map_map, walk_cols]
  have e1 : List.map (Prod.fst ∘ fun k => (k, Q.fixed k)) (List.range 17) = List.range' 0 17 := by decide
  have e2 : List.map (Prod.fst ∘ fun i => (i + START, Q.bulk i)) (List.range S.nc) = List.range' 17 S.nc :=
    map_add_range' 17 S.nc
  have e3 : List.map Prod.fst (if S.liqFrac = true then [(S.nc + START + nEq S + nFr S, Q.fracLiq)] else []) =
      List.range' (S.nc + START + nEq S + nFr S) (lf S) := by
    unfold lf; split_ifs <;> rfl
  have e4 : List.map Prod.fst (if hT = true then [(S.nc + START + nEq S + nFr S + lf S, Q.assimT)] else []) =
      List.range' (S.nc + START + nEq S + nFr S + lf S) (if hT then 1 else 0) := by
    split_ifs <;> rfl
  have e5 : List.map Prod.fst (if hL = true then
      (List.range S.nc).map fun i => (S.nc + START + nEq S + nFr S + lf S + 1 + nAs S + i, Q.assimOx i) else []) =
      List.range' (S.nc + START + nEq S + nFr S + lf S + 1 + nAs S) (if hL then S.nc else 0) := by
    split_ifs
    · rw [List.map_map, List.range'_eq_map_range]; rfl
    · rfl
  rw [e1, e2, e3, e4, e5, List.range_eq_range']
  have step : ∀ a b c : ℕ, b = a → List.range' 0 a ++ List.range' b c = List.range' 0 (a + c) := by
    intro a b c h
    subst h
    have := List.range'_append_1 (s := 0) (m := b) (n := c)
    rw [Nat.zero_add] at this
    exact this
  unfold START
  rw [step 17 17 _ rfl, step _ _ _ (by omega : S.nc + 17 = 17 + S.nc),
    step _ _ _ (by unfold nEq; omega), step _ _ _ (by unfold nEq nFr; omega), step _ _ _ (by unfold nEq nFr; omega)]
  cases hT with
  | true =>
    rw [step _ _ _ (by simp [nEq, nFr]; omega), step _ _ _ (by simp [nEq, nFr, nAs]; omega)]
    simp [nEq, nFr, nAs]
  | false =>
    obtain ⟨h2, h3⟩ := h1 rfl
    simp [h2, h3, nEq, nFr, nAs]

/-! ### C36 -/

/-- Sheet "System": apart from the assimilated liquid's own cell, header labels are in columns 0, 1, 2, ..., each label in
its own column. -/
theorem C36_header_columns (S : Shape) : ∃ n, ((header S).filter notLiq).map Prod.fst = List.range n := by
  rw [header_layout]
  refine layout_cols S _ _ fun h => ?_
  simp only [decide_eq_false_iff_not, not_or, not_lt, Nat.le_zero, Bool.not_eq_true] at h
  exact ⟨h.1, h.2⟩

/-- Every number, apart from the mass of assimilated liquid, is under its own label. -/
theorem C36_under_label (S : Shape) (hasT hasL : Bool) (hT : hasT = true → 0 < nAs S ∨ S.liqAssim = true)
    (hL : hasL = true → S.liqAssim = true) (w : ℕ × Q) (hw : w ∈ dataRow S hasT hasL) (hq : w.2 ≠ .assimLiqMass) :
    w ∈ header S := by
  have h1 : w ∈ (dataRow S hasT hasL).filter notLiq := List.mem_filter.mpr ⟨hw, by simp [notLiq, hq]⟩
  have h2 : w ∈ (header S).filter notLiq := by
    rw [header_layout]
    rw [dataRow_layout] at h1
    unfold layout at h1 ⊢
    simp only [List.mem_append] at h1 ⊢
    rcases h1 with ((((((h | h) | h) | h) | h) | h) | h) | h
    · simp [h]
    · simp [h]
    · simp [h]
    · simp [h]
    · simp [h]
    · cases hasT
      · simp at h
      · simp only [if_true] at h
        simp only [hT rfl, decide_true, if_true, h, true_or, or_true]
    · simp [h]
    · cases hasL
      · simp at h
      · simp only [if_true] at h
        simp only [hL rfl, if_true, h, or_true]
  exact (List.mem_filter.mp h2).1

/-- Distinct quantities of a complete row, apart from the mass of assimilated liquid, are in distinct columns. -/
theorem C36_distinct (S : Shape) (hasT hasL : Bool) (h1 : hasT = false → nAs S = 0 ∧ hasL = false) :
    (((dataRow S hasT hasL).filter notLiq).map Prod.fst).Nodup := by
  rw [dataRow_layout]
  obtain ⟨n, hn⟩ := layout_cols S hasL hasT h1
  rw [hn]
  exact List.nodup_range

/-- The mass of assimilated liquid is written over the last assimilated phase ... -/
theorem C36_liquid_mass_collides (S : Shape) (hasT : Bool) (hnc : 0 < S.nc) (h : 0 < nAs S) :
    ∃ c i, (c, Q.assim i) ∈ dataRow S hasT true ∧ (c, Q.assimLiqMass) ∈ dataRow S hasT true ∧
      cell (dataRow S hasT true) c ≠ some (Q.assim i) := by
  set base := S.nc + START + nEq S + nFr S + (lf S + 1) with hbase
  have hcols := walk_cols Q.assim S.as 0 base
  have hmem : base + (nAs S - 1) ∈ (walk Q.assim S.as 0 base).map Prod.fst := by
    rw [hcols]
    simp only [List.mem_range'_1]
    unfold nAs at h ⊢; omega
  obtain ⟨⟨c, q⟩, hw, hc⟩ := List.mem_map.mp hmem
  have hq : ∀ (fl : List Bool) (i c' : ℕ) (w : ℕ × Q), w ∈ walk Q.assim fl i c' → ∃ j, w.2 = Q.assim j := by
    intro fl
    induction fl with
    | nil => intro i c' w h; simp [walk] at h
    | cons b r ih =>
      intro i c' w h
      cases b
      · exact ih _ _ w h
      · rcases List.mem_cons.mp h with h | h
        · exact ⟨i, by rw [h]⟩
        · exact ih _ _ w h
  obtain ⟨j, hj⟩ := hq _ _ _ _ hw
  simp only at hc hj
  subst hj
  have hliq : (c, Q.assimLiqMass) ∈ (List.range S.nc).flatMap fun i =>
      (if i = 0 then [(START + S.nc + nEq S + nFr S + lf S + nAs S, Q.assimLiqMass)] else []) ++
        [(START + S.nc + nEq S + nFr S + (lf S + 1) + nAs S + i, Q.assimOx i)] := by
    refine List.mem_flatMap.mpr ⟨0, List.mem_range.mpr hnc, ?_⟩
    have : c = START + S.nc + nEq S + nFr S + lf S + nAs S := by omega
    simp [this]
  refine ⟨c, j, ?_, ?_, ?_⟩
  · unfold dataRow
    simp only [lf2, List.mem_append]
    exact Or.inl (Or.inr hw)
  · unfold dataRow
    simp only [lf2, List.mem_append]
    exact Or.inr (by rw [if_pos trivial]; exact hliq)
  · intro hcell
    unfold cell dataRow at hcell
    simp only [lf2, if_true] at hcell
    rw [List.reverse_append, List.find?_append] at hcell
    -- the block written last contains the column
    have hsome : (List.find? (fun w => decide (w.1 = c)) (((List.range S.nc).flatMap fun i =>
      (if i = 0 then [(START + S.nc + nEq S + nFr S + lf S + nAs S, Q.assimLiqMass)] else []) ++
        [(START + S.nc + nEq S + nFr S + (lf S + 1) + nAs S + i, Q.assimOx i)]).reverse)).isSome := by
      rw [List.find?_isSome]
      exact ⟨_, List.mem_reverse.mpr hliq, by simp⟩
    obtain ⟨w, hw'⟩ := Option.isSome_iff_exists.mp hsome
    rw [hw'] at hcell
    simp only [Option.some_or, Option.map_some, Option.some.injEq] at hcell
    have hwm := List.mem_reverse.mp (List.mem_of_find?_eq_some hw')
    obtain ⟨i, _, hi⟩ := List.mem_flatMap.mp hwm
    rcases List.mem_append.mp hi with hi | hi
    · split_ifs at hi
      · simp only [List.mem_singleton] at hi; rw [hi] at hcell; simp at hcell
      · simp at hi
    · simp only [List.mem_singleton] at hi; rw [hi] at hcell; simp at hcell

/-- ... or, if no phase is assimilated, over the temperature of the assimilant. -/
theorem C36_liquid_mass_over_temperature (S : Shape) (hnc : 0 < S.nc) (h : nAs S = 0) :
    ∃ c, (c, Q.assimT) ∈ dataRow S true true ∧ (c, Q.assimLiqMass) ∈ dataRow S true true := by
  refine ⟨S.nc + START + nEq S + nFr S + lf S, ?_, ?_⟩
  · unfold dataRow; simp
  · unfold dataRow
    simp only [List.mem_append]
    refine Or.inr ?_
    rw [if_pos trivial]
    refine List.mem_flatMap.mpr ⟨0, List.mem_range.mpr hnc, ?_⟩
    simp [h, Nat.add_comm S.nc]

/-! #### Sheets "Liquid" and "Phases" -/

/-- Columns of a table of the sheet "Liquid" that starts at `b`: step, mass, oxides, xlsx_writer.cpp 276-345. -/
def liquidTable (nc b : ℕ) : List ℕ := b :: (b + 1) :: (List.range nc).map fun i => b + i + 2

/-- Start of the three tables, xlsx_writer.cpp 277, 301-327: `max_column`, doubled after the second table. -/
def liquidStart (nc : ℕ) (liqFrac : Bool) : Fin 3 → ℕ
  | 0 => 0
  | 1 => nc + 3
  | 2 => if liqFrac then (nc + 3) * 2 else nc + 3

/-- The tables of the sheet "Liquid" do not overlap. -/
theorem C36_liquid_sheet (nc : ℕ) (liqFrac : Bool) (s t : Fin 3) (hs : s < t) (hp : s = 1 ∨ t = 1 → liqFrac = true) :
    ∀ c ∈ liquidTable nc (liquidStart nc liqFrac s), c ∉ liquidTable nc (liquidStart nc liqFrac t) := by
  have hb : ∀ (b c : ℕ), c ∈ liquidTable nc b → b ≤ c ∧ c < b + nc + 2 := by
    intro b c h
    unfold liquidTable at h
    simp only [List.mem_cons, List.mem_map, List.mem_range] at h
    rcases h with h | h | ⟨i, hi, h⟩ <;> omega
  intro c h1 h2
  have h1 := hb _ _ h1
  have h2 := hb _ _ h2
  have : liquidStart nc liqFrac s + nc + 2 < liquidStart nc liqFrac t := by
    fin_cases s <;> fin_cases t <;> simp_all [liquidStart]
    · split_ifs <;> omega
    · omega
  omega

/-- Columns used by a row with `n` phases in a table of the sheet "Phases" that starts at `b`, xlsx_writer.cpp 356-366,
376-387: the step number, then label, mass and formula of each phase. -/
def phasesRow (b n : ℕ) : List ℕ := b :: (List.range (3 * n)).map fun i => b + 1 + i

/-- `max_column` after the first table, xlsx_writer.cpp 349, 367-370, for rows with the given numbers of phases. -/
def firstWidth (rows : List ℕ) : ℕ := rows.foldl (fun m n => max m (1 + 3 * n)) 3 + 1

/-- The third table starts at twice that column, 389: it is clear of the second if no step has more fractionated phases
than fit, ... -/
theorem C36_phases_sheet_clear (rows : List ℕ) (n a : ℕ) (h : 3 * n + 1 ≤ firstWidth rows) :
    ∀ c ∈ phasesRow (firstWidth rows) n, c ∉ phasesRow (firstWidth rows * 2) a := by
  intro c h1 h2
  unfold phasesRow at h1 h2
  simp only [List.mem_cons, List.mem_map, List.mem_range] at h1 h2
  rcases h1 with h1 | ⟨i, hi, h1⟩ <;> rcases h2 with h2 | ⟨j, hj, h2⟩ <;>
    (have : 4 ≤ firstWidth rows := by
      unfold firstWidth
      have : ∀ (l : List ℕ) (m : ℕ), m ≤ l.foldl (fun m n => max m (1 + 3 * n)) m := by
        intro l
        induction l with
        | nil => intro m; exact le_refl _
        | cons x l ih => intro m; exact le_trans (Nat.le_max_left _ _) (ih _)
      have := this rows 3
      omega) <;> omega

/-- ... and is written into otherwise: with enough fractionated phases the tables overlap. -/
theorem C36_phases_sheet_overlaps (rows : List ℕ) (n a : ℕ) (h : firstWidth rows < 3 * n + 1) :
    ∃ c ∈ phasesRow (firstWidth rows) n, c ∈ phasesRow (firstWidth rows * 2) a := by
  refine ⟨firstWidth rows * 2, ?_, by simp [phasesRow]⟩
  unfold phasesRow
  simp only [List.mem_cons, List.mem_map, List.mem_range]
  have : 0 < firstWidth rows := by unfold firstWidth; omega
  exact Or.inr ⟨firstWidth rows - 1, by omega, by omega⟩

/-- The third table overlaps the second exactly if some step fractionates more phases than fit. -/
theorem C36_phases_sheet (rows : List ℕ) (n a : ℕ) :
    (∃ c ∈ phasesRow (firstWidth rows) n, c ∈ phasesRow (firstWidth rows * 2) a) ↔ firstWidth rows < 3 * n + 1 := by
  constructor
  · rintro ⟨c, h1, h2⟩
    by_contra h
    exact C36_phases_sheet_clear rows n a (Nat.le_of_not_lt h) c h1 h2
  · exact C36_phases_sheet_overlaps rows n a

/-- The first table never reaches into the second. -/
theorem C36_phases_first_table (rows : List ℕ) (n : ℕ) (hn : n ∈ rows) (m : ℕ) :
    ∀ c ∈ phasesRow 0 n, c ∉ phasesRow (firstWidth rows) m := by
  have hle : ∀ (l : List ℕ) (m : ℕ), m ≤ l.foldl (fun m n => max m (1 + 3 * n)) m ∧
      ∀ n ∈ l, 1 + 3 * n ≤ l.foldl (fun m n => max m (1 + 3 * n)) m := by
    intro l
    induction l with
    | nil => intro m; exact ⟨le_refl _, fun n h => by simp at h⟩
    | cons x l ih =>
      intro m
      have := ih (max m (1 + 3 * x))
      refine ⟨le_trans (Nat.le_max_left _ _) this.1, fun n h => ?_⟩
      rcases List.mem_cons.mp h with h | h
      · subst h; exact le_trans (Nat.le_max_right _ _) this.1
      · exact this.2 n h
  have h := (hle rows 3).2 n hn
  intro c h1 h2
  unfold phasesRow at h1 h2
  unfold firstWidth at h2
  simp only [List.mem_cons, List.mem_map, List.mem_range] at h1 h2
  rcases h1 with h1 | ⟨i, hi, h1⟩ <;> rcases h2 with h2 | ⟨j, hj, h2⟩ <;> omega

/-- The columns of a walk: entry `i`, if flagged, in the column after those of the flagged entries before it. -/
theorem mem_walk (mk : ℕ → Q) (hmk : Function.Injective mk) : ∀ (fl : List Bool) (i c c' k : ℕ),
    (c', mk k) ∈ walk mk fl i c ↔ i ≤ k ∧ fl[k - i]? = some true ∧ c' = c + (fl.take (k - i)).count true
  | [], i, c, c', k => by simp [walk]
  | true :: r, i, c, c', k => by
    have ih := mem_walk mk hmk r (i + 1) (c + 1) c' k
    simp only [walk, List.mem_cons, Prod.mk.injEq, hmk.eq_iff]
    rw [ih]
    rcases Nat.lt_trichotomy k i with h | h | h
    · constructor
      · rintro (⟨-, h'⟩ | ⟨h', -⟩) <;> omega
      · rintro ⟨h', -⟩; omega
    · subst h
      constructor
      · rintro (⟨h', -⟩ | ⟨h', -⟩)
        · exact ⟨le_refl _, by simp, by simp [h']⟩
        · omega
      · rintro ⟨-, -, h'⟩; left; simpa using h'
    · obtain ⟨d, rfl⟩ : ∃ d, k = i + 1 + d := ⟨k - (i + 1), by omega⟩
      have e1 : i + 1 + d - (i + 1) = d := by omega
      have e2 : i + 1 + d - i = d + 1 := by omega
      rw [e1, e2]
      simp only [List.getElem?_cons_succ, List.take_succ_cons, List.count_cons_self]
      constructor
      · rintro (⟨-, h'⟩ | ⟨-, h2, h3⟩)
        · omega
        · exact ⟨by omega, h2, by omega⟩
      · rintro ⟨-, h2, h3⟩; exact .inr ⟨by omega, h2, by omega⟩
  | false :: r, i, c, c', k => by
    have ih := mem_walk mk hmk r (i + 1) c c' k
    simp only [walk]
    rw [ih]
    rcases Nat.lt_trichotomy k i with h | h | h
    · constructor
      · rintro ⟨h', -⟩; omega
      · rintro ⟨h', -⟩; omega
    · subst h
      constructor
      · rintro ⟨h', -⟩; omega
      · rintro ⟨-, h', -⟩; simp at h'
    · obtain ⟨d, rfl⟩ : ∃ d, k = i + 1 + d := ⟨k - (i + 1), by omega⟩
      have e1 : i + 1 + d - (i + 1) = d := by omega
      have e2 : i + 1 + d - i = d + 1 := by omega
      rw [e1, e2]
      simp only [List.getElem?_cons_succ, List.take_succ_cons]
      constructor
      · rintro ⟨-, h2, h3⟩; exact ⟨by omega, h2, by simpa using h3⟩
      · rintro ⟨-, h2, h3⟩; exact ⟨by omega, h2, by simpa using h3⟩

theorem walk_kind {mk mk' : ℕ → Q} (h : ∀ a b, mk a ≠ mk' b) : ∀ (fl : List Bool) (i c c' k : ℕ), (c', mk k) ∉ walk mk' fl i c
  | [], _, _, _, _ => by simp [walk]
  | true :: r, i, c, c', k => by simp [walk, h, walk_kind h r]
  | false :: r, i, c, c', k => by simp [walk, walk_kind h r]

/-- In a row, the mass of a phase present in some step stands after those of the phases with smaller numbers present in some
step; phases never present have no column. -/
theorem C36_phase_column (S : Shape) (hasT hasL : Bool) (c i : ℕ) :
    (c, Q.phase i) ∈ dataRow S hasT hasL ↔ S.eq[i]? = some true ∧ c = S.nc + 17 + (S.eq.take i).count true := by
  have hw := mem_walk Q.phase (fun a b h => by simpa using h) S.eq 0 (S.nc + START) c i
  have k1 := walk_kind (mk := Q.phase) (mk' := Q.frac) (by simp) S.fr 0 (S.nc + START + nEq S) c i
  have k2 := walk_kind (mk := Q.phase) (mk' := Q.assim) (by simp) S.as 0 (S.nc + START + nEq S + nFr S + (if S.liqFrac then 2 else 1)) c i
  simp only [Nat.sub_zero, Nat.zero_le, true_and] at hw
  have hST : START = 17 := rfl
  rw [← hST, ← hw]
  unfold dataRow
  simp only [List.mem_append, k1, k2, or_false]
  constructor
  · rintro (((((h | h) | h) | h) | h) | h)
    · simp at h
    · simp at h
    · exact h
    · split_ifs at h <;> simp at h
    · split_ifs at h <;> simp at h
    · split_ifs at h
      all_goals first
        | exact absurd h List.not_mem_nil
        | (simp only [List.mem_flatMap, List.mem_append] at h
           obtain ⟨x, -, h | h⟩ := h
           · split_ifs at h <;> simp at h
           · simp at h)
  · intro h; simp [h]

/-- The same for fractionated phases ... -/
theorem C36_fractionated_column (S : Shape) (hasT hasL : Bool) (c i : ℕ) :
    (c, Q.frac i) ∈ dataRow S hasT hasL ↔ S.fr[i]? = some true ∧ c = S.nc + 17 + S.eq.count true + (S.fr.take i).count true := by
  have hw := mem_walk Q.frac (fun a b h => by simpa using h) S.fr 0 (S.nc + START + nEq S) c i
  have k1 := walk_kind (mk := Q.frac) (mk' := Q.phase) (by simp) S.eq 0 (S.nc + START) c i
  have k2 := walk_kind (mk := Q.frac) (mk' := Q.assim) (by simp) S.as 0 (S.nc + START + nEq S + nFr S + (if S.liqFrac then 2 else 1)) c i
  simp only [Nat.sub_zero, Nat.zero_le, true_and] at hw
  have hST : START = 17 := rfl
  rw [← hST, show S.eq.count true = nEq S from rfl, ← hw]
  unfold dataRow
  simp only [List.mem_append, k1, k2, or_false]
  constructor
  · rintro (((((h | h) | h) | h) | h) | h)
    · simp at h
    · simp at h
    · exact h
    · split_ifs at h <;> simp at h
    · split_ifs at h <;> simp at h
    · split_ifs at h
      all_goals first
        | exact absurd h List.not_mem_nil
        | (simp only [List.mem_flatMap, List.mem_append] at h
           obtain ⟨x, -, h | h⟩ := h
           · split_ifs at h <;> simp at h
           · simp at h)
  · intro h; simp [h]

/-- ... and for assimilated ones (before the mass of assimilated liquid overwrites the last of them). -/
theorem C36_assimilated_column (S : Shape) (hasT hasL : Bool) (c i : ℕ) :
    (c, Q.assim i) ∈ dataRow S hasT hasL ↔ S.as[i]? = some true ∧
      c = S.nc + 17 + S.eq.count true + S.fr.count true + (if S.liqFrac then 2 else 1) + (S.as.take i).count true := by
  have hw := mem_walk Q.assim (fun a b h => by simpa using h) S.as 0 (S.nc + START + nEq S + nFr S + (if S.liqFrac then 2 else 1)) c i
  have k1 := walk_kind (mk := Q.assim) (mk' := Q.phase) (by simp) S.eq 0 (S.nc + START) c i
  have k2 := walk_kind (mk := Q.assim) (mk' := Q.frac) (by simp) S.fr 0 (S.nc + START + nEq S) c i
  simp only [Nat.sub_zero, Nat.zero_le, true_and] at hw
  have hST : START = 17 := rfl
  rw [← hST, show S.eq.count true = nEq S from rfl, show S.fr.count true = nFr S from rfl, ← hw]
  unfold dataRow
  simp only [List.mem_append, k1, k2, or_false]
  constructor
  · rintro (((((h | h) | h) | h) | h) | h)
    · simp at h
    · simp at h
    · split_ifs at h <;> simp at h
    · split_ifs at h <;> simp at h
    · exact h
    · split_ifs at h
      all_goals first
        | exact absurd h List.not_mem_nil
        | (simp only [List.mem_flatMap, List.mem_append] at h
           obtain ⟨x, -, h | h⟩ := h
           · split_ifs at h <;> simp at h
           · simp at h)
  · intro h; simp [h]

/-! ### Concrete cases -/

def exS : Shape := ⟨2, [true, false, true], [true, false, false], [false, true, true], true, true⟩

example : (header exS).map Prod.fst = [0, 1, 2, 3, 4, 5, 6, 7, 8, 9, 10, 11, 12, 13, 14, 15, 16, 17, 18, 19, 20, 21, 22, 23, 24, 25,
  26, 26, 27] := by decide
/-- Mass of phase 2 is lost: its column holds the mass of the liquid. -/
example : (25, Q.assim 2) ∈ dataRow exS true true ∧ cell (dataRow exS true true) 25 = some Q.assimLiqMass := by decide
/-- The label of the liquid is lost as well: its column is labelled with the first oxide. -/
example : cell (header exS) 26 = some (Q.assimOx 0) := by decide
example : firstWidth [1, 2] < 3 * 3 + 1 := by decide
example : 3 * 2 + 1 ≤ firstWidth [1, 2] := by decide

end Magma.Iface.Columns
