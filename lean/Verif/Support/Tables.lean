import Verif.Support.FormulaProps
import Verif.Support.TableData
import Verif.Engine.AddDrop
import Mathlib.Algebra.BigOperators.Fin
import Mathlib.Algebra.Order.BigOperators.Ring.Finset
import Mathlib.Tactic.Linarith

/-!
`InitComputeDataStruct`, /repo/sources/melts_support.c 266-507: the tables that convert between oxides, liquid components
and solids, computed from the formulas, and property C58.

The singular-value solver of GSL is modelled by what it computes for the non-singular systems met here: a solution
of the normal equations. `double` is ℚ.
-/

namespace Magma.Support.Tables

open Magma.Support.Formula
open Magma.Engine (Tables SRow)

/-! ### The code -/

/-- `atof` on a string of digits. -/
def digits (s : List Char) : ℚ := s.foldl (fun a c => 10 * a + ((c.toNat - 48 : ℕ) : ℚ)) 0

/-- `atof` on digits with a decimal point (melts_support.c 800, 811). -/
def unsigned (s : List Char) : ℚ :=
  let i := s.takeWhile (· ≠ '.')
  let f := (s.dropWhile (· ≠ '.')).drop 1
  digits i + digits f / 10 ^ f.length

/-- `atof` on the decimal numbers of the tables. -/
def dec : List Char → ℚ
  | '-' :: s => -unsigned s
  | s => unsigned s

/-- One row of `elementsToOxides`, `elementsToLiquid`, `elementsToSolids`, 286-315: the row is cleared and handed to
`formulaToMwStoich`, whose success is not checked. -/
def elemRow (f : List Char) : ℕ → ℚ :=
  match formulaToMwStoich elements dec f fun _ => 0 with
  | .ok _ st => st
  | .err st => st
  | .overflow => fun _ => 0

/-- `bulkSystem[i].mw`, `solids[i].mw`, 286, 313: 0 when the formula is not accepted. -/
def weight (f : List Char) : ℚ :=
  match formulaToMwStoich elements dec f fun _ => 0 with
  | .ok mw _ => mw
  | .err _ => 0
  | .overflow => 0

variable {n nc nlc : ℕ}

/-- What `gsl_linalg_SV_solve` is asked for, 349-384, 397-413, 433-464, 476-500: `(B B^t) x = B s`, sums over the elements. -/
def Solves (B : Fin n → ℕ → ℚ) (s : ℕ → ℚ) (x : Fin n → ℚ) : Prop :=
  ∀ i, ∑ j, (∑ k ∈ Finset.range elements.ne, B i k * B j k) * x j = ∑ k ∈ Finset.range elements.ne, B i k * s k

/-- 386-388, 415-417, 466-468, 502-504: entries below `sqrt(TAU)` are set to zero. -/
def clean (tau : ℚ) (x : Fin n → ℚ) (j : Fin n) : ℚ := if |x j| < tau then 0 else x j

/-- `InitComputeDataStruct` for the oxides `ox`, the liquid components `lq` and the solids `sol` (formulas): the tables
`liqToOx`, `oxToLiq`, `solToOx`, `solToLiq` it leaves. -/
structure Computed (tau : ℚ) (ox : Fin nc → List Char) (lq : Fin nlc → List Char) (sol : List (List Char))
    (tb : Tables nc nlc ℚ) (rows : List (SRow nc nlc ℚ)) : Prop where
  liqToOx : ∀ j, ∃ x, Solves (fun o => elemRow (ox o)) (elemRow (lq j)) x ∧ tb.liqToOx j = clean tau x
  oxToLiq : ∀ o, ∃ x, Solves (fun j => elemRow (lq j)) (elemRow (ox o)) x ∧ tb.oxToLiq o = clean tau x
  len : rows.length = sol.length
  solToOx : ∀ i (hi : i < sol.length), ∃ x, Solves (fun o => elemRow (ox o)) (elemRow sol[i]) x ∧
    rows[i].solToOx = clean tau x
  solToLiq : ∀ i (hi : i < sol.length), ∃ x, Solves (fun j => elemRow (lq j)) (elemRow sol[i]) x ∧
    rows[i].solToLiq = clean tau x

/-- The three models the program offers (interface.c 640-670, library.c 57-76). -/
inductive Model
  | melts
  | meltsFluid
  | pMelts

/-- Labels of the oxides. -/
def oxLabel (o : Fin 19) : List Char := (oxides.getD o ("", [])).1.toList

/-- Labels of the liquid components. -/
def Model.liqTable : Model → List (String × List Item)
  | .pMelts => pMeltsLiquid
  | _ => meltsLiquid

def Model.liqLabel (m : Model) (j : Fin 19) : List Char := (m.liqTable.getD j ("", [])).1.toList

/-- The table of solids. -/
def Model.solTable : Model → List (Bool × String × List Item)
  | .melts => meltsSolids
  | .meltsFluid => meltsFluidSolids
  | .pMelts => pMeltsSolids

/-- The formulas of the table of solids; a solution's own row has none. -/
def Model.solFormulas (m : Model) : List (List Char) := m.solTable.map fun p => p.2.1.toList

/-- 317-322: from a PHASE row, `na` and `nr` from the number of COMPONENT rows that follow (`b :: rest` are the types of
the rows from this one on, `true` for PHASE). -/
def naNr (rest : List Bool) : ℕ × ℕ :=
  let k := (rest.takeWhile fun b => !b).length
  (max k 1, k - 1)

/-! ### Unique solutions -/

/-- The normal equations have one solution when the rows are independent and the right-hand side is a combination of them. -/
theorem solves_unique (B : Fin n → ℕ → ℚ) (s : ℕ → ℚ) (R : ℕ → Fin n → ℚ) (c x : Fin n → ℚ)
    (hR : ∀ i j, ∑ k ∈ Finset.range elements.ne, B i k * R k j = if i = j then 1 else 0)
    (hc : ∀ k < elements.ne, s k = ∑ j, c j * B j k) (hx : Solves B s x) : x = c := by
  set r := Finset.range elements.ne
  have h1 : ∀ i, ∑ k ∈ r, B i k * (∑ j, (x j - c j) * B j k) = 0 := by
    intro i
    have e := hx i
    have e2 : ∑ k ∈ r, B i k * s k = ∑ k ∈ r, B i k * ∑ j, c j * B j k :=
      Finset.sum_congr rfl fun k hk => by rw [hc k (Finset.mem_range.mp hk)]
    have e3 : ∑ j, (∑ k ∈ r, B i k * B j k) * x j = ∑ k ∈ r, B i k * ∑ j, x j * B j k := by
      simp_rw [Finset.sum_mul, Finset.mul_sum]
      rw [Finset.sum_comm]
      exact Finset.sum_congr rfl fun _ _ => Finset.sum_congr rfl fun _ _ => by ring
    rw [e2] at e
    change ∑ j, (∑ k ∈ r, B i k * B j k) * x j = _ at e
    rw [e3] at e
    have e4 : ∑ k ∈ r, B i k * (∑ j, (x j - c j) * B j k) =
        ∑ k ∈ r, B i k * (∑ j, x j * B j k) - ∑ k ∈ r, B i k * (∑ j, c j * B j k) := by
      rw [← Finset.sum_sub_distrib]
      refine Finset.sum_congr rfl fun k _ => ?_
      rw [← mul_sub, ← Finset.sum_sub_distrib]
      congr 1
      exact Finset.sum_congr rfl fun _ _ => by ring
    rw [e4, e, sub_self]
  have h2 : ∑ k ∈ r, (∑ j, (x j - c j) * B j k) ^ 2 = 0 := by
    have : ∑ k ∈ r, (∑ j, (x j - c j) * B j k) ^ 2 =
        ∑ i, (x i - c i) * ∑ k ∈ r, B i k * (∑ j, (x j - c j) * B j k) := by
      simp_rw [Finset.mul_sum (s := r)]
      rw [Finset.sum_comm]
      refine Finset.sum_congr rfl fun k _ => ?_
      rw [sq, Finset.sum_mul]
      exact Finset.sum_congr rfl fun _ _ => by ring
    rw [this]
    simp [h1]
  have h3 : ∀ k ∈ r, ∑ j, (x j - c j) * B j k = 0 := by
    intro k hk
    have := (Finset.sum_eq_zero_iff_of_nonneg (fun k _ => sq_nonneg _)).mp h2 k hk
    exact pow_eq_zero_iff (two_ne_zero) |>.mp this
  funext i
  have h4 : ∑ k ∈ r, (∑ j, (x j - c j) * B j k) * R k i = 0 :=
    Finset.sum_eq_zero fun k hk => by rw [h3 k hk, zero_mul]
  have h5 : ∑ k ∈ r, (∑ j, (x j - c j) * B j k) * R k i = ∑ j, (x j - c j) * ∑ k ∈ r, B j k * R k i := by
    simp_rw [Finset.sum_mul, Finset.mul_sum]
    rw [Finset.sum_comm]
    exact Finset.sum_congr rfl fun _ _ => Finset.sum_congr rfl fun _ _ => by ring
  rw [h5] at h4
  simp only [hR, mul_ite, mul_one, mul_zero, Finset.sum_ite_eq', Finset.mem_univ, if_true] at h4
  linarith

/-! ### Rows of the tables -/

/-- The formula is built from the elements of the oxides. -/
def usesEls : Item → Bool
  | .atom a => els.contains a.el
  | .group as _ => as.all fun a => els.contains a.el

def rowOk (p : String × List Item) : Bool :=
  !p.2.isEmpty && p.2.all itemOk && (text elements p.2 == p.1.toList) && p.2.all usesEls

theorem row_count (p : String × List Item) (h : rowOk p = true) :
    elemRow p.1.toList = count dec p.2 ∧
    weight p.1.toList = ∑ e ∈ Finset.range elements.ne, count dec p.2 e * elements.wt e := by
  simp only [rowOk, Bool.and_eq_true, beq_iff_eq, Bool.not_eq_true', List.isEmpty_eq_false_iff] at h
  have := C26_reads_formulas elements dec p.2 h.1.1.1
    (fun i hi => itemOk_good i ((List.all_eq_true.mp h.1.1.2) i hi)) fun _ => 0
  rw [h.1.2] at this
  unfold elemRow weight
  rw [this]
  refine ⟨?_, rfl⟩
  funext e
  simp

theorem count_zero (f : List Item) (h : f.all usesEls = true) (e : ℕ) (he : e ∉ els) : count dec f e = 0 := by
  unfold count
  apply List.sum_eq_zero
  intro x hx
  rw [List.mem_map] at hx
  obtain ⟨i, hi, rfl⟩ := hx
  have hu := List.all_eq_true.mp h i hi
  have atom0 : ∀ a : Atom, els.contains a.el = true → Atom.count dec e a = 0 := by
    intro a ha
    unfold Atom.count
    rw [if_neg]
    rintro rfl
    exact he (by simpa using ha)
  cases i with
  | atom a => exact atom0 a hu
  | group as mul =>
    simp only [usesEls, List.all_eq_true] at hu
    have : (as.map (Atom.count dec e)).sum = 0 := ?_
    · change (as.map (Atom.count dec e)).sum * value dec mul = 0
      rw [this, zero_mul]
    apply List.sum_eq_zero
    intro x hx
    rw [List.mem_map] at hx
    obtain ⟨a, ha, rfl⟩ := hx
    exact atom0 a (hu a ha)

theorem els_nodup : els.Nodup := by decide +kernel

theorem els_lt : ∀ e ∈ els, e < elements.ne := by decide +kernel

/-- A sum over all elements of something that vanishes off `els`. -/
theorem sum_els (g : ℕ → ℚ) (h : ∀ e, e ∉ els → g e = 0) :
    ∑ e ∈ Finset.range elements.ne, g e = (els.map g).sum := by
  rw [← List.sum_toFinset g els_nodup]
  symm
  apply Finset.sum_subset
  · intro e he
    exact Finset.mem_range.mpr (els_lt e (by simpa using he))
  · intro e _ he
    exact h e (by simpa using he)

/-- Entry of a sparse matrix whose row `k` belongs to element `els[k]`. -/
def inverse (M : List (List (ℕ × ℚ))) (e : ℕ) (j : Fin 19) : ℚ :=
  ((M.getD (els.idxOf e) []).map fun p => if p.1 = j.val then p.2 else 0).sum

/-- The two identities that make `M` the inverse of the element contents of a table of 19 rows. -/
def invOk (tbl : List (String × List Item)) (M : List (List (ℕ × ℚ))) : Bool :=
  (tbl.length == 19) && tbl.all rowOk &&
  (List.finRange 19).all (fun i => (List.finRange 19).all fun j =>
    (els.map fun k => count dec (tbl.getD i ("", [])).2 k * inverse M k j).sum == if i = j then 1 else 0) &&
  els.all fun k => els.all fun k' =>
    ((List.finRange 19).map fun j => inverse M k j * count dec (tbl.getD j ("", [])).2 k').sum == if k = k' then 1 else 0

theorem ox_ok : invOk oxides oxInv = true := by decide +kernel
theorem melts_ok : invOk meltsLiquid meltsInv = true := by decide +kernel
theorem pMelts_ok : invOk pMeltsLiquid pMeltsInv = true := by decide +kernel

/-- Row `j` of a table, as elements. -/
def tblRow (tbl : List (String × List Item)) (j : Fin 19) : ℕ → ℚ := elemRow (tbl.getD j ("", [])).1.toList

theorem tblRow_count (tbl : List (String × List Item)) (M : List (List (ℕ × ℚ))) (h : invOk tbl M = true) (j : Fin 19) :
    tblRow tbl j = count dec (tbl.getD j ("", [])).2 ∧ (tbl.getD j ("", [])).2.all usesEls = true ∧
    weight (tbl.getD j ("", [])).1.toList =
      ∑ e ∈ Finset.range elements.ne, tblRow tbl j e * elements.wt e := by
  simp only [invOk, Bool.and_eq_true, beq_iff_eq] at h
  have hj : (j : ℕ) < tbl.length := by rw [h.1.1.1]; exact j.2
  have hm : tbl.getD j ("", []) ∈ tbl := by
    rw [List.getD_eq_getElem _ _ hj]; exact List.getElem_mem hj
  have hr := List.all_eq_true.mp h.1.1.2 _ hm
  obtain ⟨e1, e2⟩ := row_count _ hr
  refine ⟨e1, ?_, ?_⟩
  · simp only [rowOk, Bool.and_eq_true] at hr
    exact hr.2
  · rw [e2]
    unfold tblRow
    rw [e1]

theorem sum_list_swap (l : List ℕ) (g : ℕ → Fin n → ℚ) :
    ∑ j, (l.map fun k => g k j).sum = (l.map fun k => ∑ j, g k j).sum := by
  induction l with
  | nil => simp
  | cons a l ih => simp only [List.map_cons, List.sum_cons, Finset.sum_add_distrib, ih]

/-- A composition in terms of the table with inverse `M`. -/
def conv (M : List (List (ℕ × ℚ))) (s : ℕ → ℚ) (j : Fin 19) : ℚ := (els.map fun k => s k * inverse M k j).sum

theorem conv_conserves (tbl : List (String × List Item)) (M : List (List (ℕ × ℚ))) (h : invOk tbl M = true) (s : ℕ → ℚ)
    (hs : ∀ e, e ∉ els → s e = 0) (e : ℕ) : ∑ j, conv M s j * tblRow tbl j e = s e := by
  by_cases he : e ∈ els
  · have h' := h
    simp only [invOk, Bool.and_eq_true, List.all_eq_true, beq_iff_eq] at h'
    have h2 := h'.2
    have : ∑ j, conv M s j * tblRow tbl j e =
        (els.map fun k => s k * ∑ j, inverse M k j * tblRow tbl j e).sum := by
      unfold conv
      simp_rw [← List.sum_map_mul_right, Finset.mul_sum]
      rw [← sum_list_swap]
      simp_rw [mul_assoc]
    rw [this]
    have e3 : ∀ k ∈ els, s k * ∑ j, inverse M k j * tblRow tbl j e = if k = e then s e else 0 := by
      intro k hk
      have := h2 k hk e he
      rw [← List.sum_ofFn, List.ofFn_eq_map]
      have e4 : (fun j => inverse M k j * tblRow tbl j e) =
          fun j => inverse M k j * count dec (tbl.getD j ("", [])).2 e := by
        funext j
        rw [(tblRow_count tbl M h j).1]
      rw [e4, this]
      split
      · rename_i hke; rw [hke, mul_one]
      · rw [mul_zero]
    rw [List.map_congr_left e3]
    have : ∀ l : List ℕ, l.Nodup → e ∈ l → (l.map fun k => if k = e then s e else 0).sum = s e := by
      intro l
      induction l with
      | nil => intro _ h; simp at h
      | cons a l ih =>
        intro hn hm
        rw [List.nodup_cons] at hn
        rw [List.map_cons, List.sum_cons]
        by_cases hae : a = e
        · subst hae
          rw [if_pos rfl, List.sum_eq_zero, add_zero]
          intro x hx
          rw [List.mem_map] at hx
          obtain ⟨k, hk, rfl⟩ := hx
          rw [if_neg]
          rintro rfl
          exact hn.1 hk
        · rw [if_neg hae, zero_add]
          exact ih hn.2 (by simpa [Ne.symm hae] using hm)
    exact this els els_nodup he
  · rw [hs e he]
    apply Finset.sum_eq_zero
    intro j _
    rw [(tblRow_count tbl M h j).1, count_zero _ (tblRow_count tbl M h j).2.1 e he, mul_zero]

theorem rightInv (tbl : List (String × List Item)) (M : List (List (ℕ × ℚ))) (h : invOk tbl M = true) (i j : Fin 19) :
    ∑ k ∈ Finset.range elements.ne, tblRow tbl i k * inverse M k j = if i = j then 1 else 0 := by
  rw [sum_els]
  · have h' := h
    simp only [invOk, Bool.and_eq_true, List.all_eq_true, beq_iff_eq] at h'
    rw [(tblRow_count tbl M h i).1]
    exact h'.1.2 i (List.mem_finRange i) j (List.mem_finRange j)
  · intro e he
    rw [(tblRow_count tbl M h i).1, count_zero _ (tblRow_count tbl M h i).2.1 e he, zero_mul]

/-- The solver's answer is the exact combination. -/
theorem solves_conv (tbl : List (String × List Item)) (M : List (List (ℕ × ℚ))) (h : invOk tbl M = true) (s : ℕ → ℚ)
    (hs : ∀ e, e ∉ els → s e = 0) (x : Fin 19 → ℚ) : Solves (tblRow tbl) s x ↔ x = conv M s := by
  constructor
  · exact solves_unique (tblRow tbl) s (inverse M) (conv M s) x (rightInv tbl M h)
      fun k _ => (conv_conserves tbl M h s hs k).symm
  · rintro rfl i
    have : ∀ k, s k = ∑ j, conv M s j * tblRow tbl j k := fun k => (conv_conserves tbl M h s hs k).symm
    have e : ∑ k ∈ Finset.range elements.ne, tblRow tbl i k * s k =
        ∑ k ∈ Finset.range elements.ne, tblRow tbl i k * ∑ j, conv M s j * tblRow tbl j k :=
      Finset.sum_congr rfl fun k _ => by rw [← this k]
    rw [e]
    simp_rw [Finset.sum_mul, Finset.mul_sum]
    rw [Finset.sum_comm]
    exact Finset.sum_congr rfl fun _ _ => Finset.sum_congr rfl fun _ _ => by ring

/-- The atoms of a formula with their numbers. -/
def atomsOf (f : List Item) : List (ℕ × ℚ) :=
  f.flatMap fun i => match i with
    | .atom a => [(a.el, value dec a.num)]
    | .group as mul => as.map fun a => (a.el, value dec a.num * value dec mul)

theorem count_atoms (f : List Item) (e : ℕ) :
    count dec f e = ((atomsOf f).map fun p => if p.1 = e then p.2 else 0).sum := by
  induction f with
  | nil => rfl
  | cons i f ih =>
    have h1 : count dec (i :: f) e = Item.count dec e i + count dec f e := by simp [count]
    have h2 : atomsOf (i :: f) = atomsOf [i] ++ atomsOf f := by simp [atomsOf]
    rw [h1, h2, List.map_append, List.sum_append, ← ih]
    congr 1
    cases i with
    | atom a => simp [atomsOf, Item.count, Atom.count]
    | group as mul =>
      simp only [atomsOf, List.flatMap_cons, List.flatMap_nil, List.append_nil, List.map_map]
      change (as.map (Atom.count dec e)).sum * value dec mul = _
      rw [← List.sum_map_mul_right]
      congr 1
      refine List.map_congr_left fun a _ => ?_
      simp [Atom.count]

theorem conv_atoms (M : List (List (ℕ × ℚ))) (f : List Item) (h : f.all usesEls = true) (j : Fin 19) :
    conv M (count dec f) j = ((atomsOf f).map fun p => p.2 * inverse M p.1 j).sum := by
  have hm : ∀ p ∈ atomsOf f, p.1 ∈ els := by
    intro p hp
    simp only [atomsOf, List.mem_flatMap] at hp
    obtain ⟨i, hi, hp⟩ := hp
    have hu := List.all_eq_true.mp h i hi
    cases i with
    | atom a =>
      simp only [List.mem_singleton] at hp
      subst hp
      simpa [usesEls] using hu
    | group as mul =>
      simp only [List.mem_map] at hp
      obtain ⟨a, ha, rfl⟩ := hp
      simp only [usesEls, List.all_eq_true] at hu
      simpa using hu a ha
  unfold conv
  simp_rw [count_atoms]
  generalize atomsOf f = l at hm
  induction l with
  | nil => simp
  | cons p l ih =>
    simp only [List.map_cons, List.sum_cons, add_mul]
    rw [List.sum_map_add, ih fun q hq => hm q (by simp [hq])]
    congr 1
    have hp := hm p (by simp)
    have : ∀ l : List ℕ, l.Nodup → p.1 ∈ l →
        (l.map fun k => (if p.1 = k then p.2 else 0) * inverse M k j).sum = p.2 * inverse M p.1 j := by
      intro l
      induction l with
      | nil => intro _ h; simp at h
      | cons a l ih =>
        intro hn hm
        rw [List.nodup_cons] at hn
        rw [List.map_cons, List.sum_cons]
        by_cases hae : p.1 = a
        · rw [if_pos hae, ← hae, List.sum_eq_zero, add_zero]
          intro x hx
          rw [List.mem_map] at hx
          obtain ⟨k, hk, rfl⟩ := hx
          rw [if_neg, zero_mul]
          rintro rfl
          exact hn.1 (hae ▸ hk)
        · rw [if_neg hae, zero_mul, zero_add]
          exact ih hn.2 (by simpa [hae] using hm)
    exact this els els_nodup hp

/-- No non-zero entry is smaller than 1/16. -/
def fine (M : List (List (ℕ × ℚ))) (f : List Item) : Bool :=
  f.all usesEls && (List.finRange 19).all fun j =>
    (fun v : ℚ => v == 0 || decide (1 / 16 ≤ v) || decide (v ≤ -1 / 16))
      ((atomsOf f).map fun p => p.2 * inverse M p.1 j).sum

theorem clean_fine (M : List (List (ℕ × ℚ))) (f : List Item) (h : fine M f = true) (tau : ℚ) (ht : tau ≤ 1 / 16) :
    clean tau (conv M (count dec f)) = conv M (count dec f) := by
  funext j
  unfold fine at h
  rw [Bool.and_eq_true] at h
  have := List.all_eq_true.mp h.2 j (List.mem_finRange j)
  rw [← conv_atoms M f h.1] at this
  simp only [Bool.or_eq_true, beq_iff_eq, decide_eq_true_eq] at this
  unfold clean
  split
  · rename_i hc
    rw [abs_lt] at hc
    rcases this with (h | h) | h
    · exact h.symm
    · exfalso; linarith
    · exfalso; linarith
  · rfl

/-- A row of a table of solids: no formula, or a formula in the elements of the oxides. -/
def solOk (p : Bool × String × List Item) : Bool := (p.2.1 == "" && p.2.2.isEmpty) || rowOk p.2

theorem sol_count (p : Bool × String × List Item) (h : solOk p = true) :
    elemRow p.2.1.toList = count dec p.2.2 ∧ p.2.2.all usesEls = true ∧
    weight p.2.1.toList = ∑ e ∈ Finset.range elements.ne, elemRow p.2.1.toList e * elements.wt e := by
  simp only [solOk, Bool.or_eq_true, Bool.and_eq_true, beq_iff_eq, List.isEmpty_iff] at h
  rcases h with ⟨h1, h2⟩ | h
  · rw [h1, h2]
    have : ("" : String).toList = [] := rfl
    rw [this]
    have e : elemRow [] = fun _ => 0 := by unfold elemRow formulaToMwStoich; rfl
    refine ⟨?_, rfl, ?_⟩
    · rw [e]; funext k; simp [count]
    · rw [e]
      unfold weight formulaToMwStoich
      simp
  · obtain ⟨e1, e2⟩ := row_count _ h
    refine ⟨e1, ?_, by rw [e2, e1]⟩
    simp only [rowOk, Bool.and_eq_true] at h
    exact h.2

/-- The inverse that belongs to a model's liquid. -/
def Model.liqInv : Model → List (List (ℕ × ℚ))
  | .pMelts => pMeltsInv
  | _ => meltsInv

theorem liq_ok (m : Model) : invOk m.liqTable m.liqInv = true := by
  cases m
  · exact melts_ok
  · exact melts_ok
  · exact pMelts_ok

theorem liq_fine (m : Model) : m.liqTable.all (fun p => fine oxInv p.2) = true := by
  cases m <;> decide +kernel

theorem ox_fine (m : Model) : oxides.all (fun p => fine m.liqInv p.2) = true := by
  cases m <;> decide +kernel

set_option maxHeartbeats 1000000 in
theorem sol_ok (m : Model) : m.solTable.all (fun p => solOk p && fine oxInv p.2.2 && fine m.liqInv p.2.2) = true := by
  cases m <;> decide +kernel

/-! ### C58 -/

/-- The exact conversion of a formula of one of the tables. -/
theorem liq_exact (m : Model) (tau : ℚ) (ht : tau ≤ 1 / 16) (j : Fin 19) (x : Fin 19 → ℚ)
    (hx : Solves (fun o => elemRow (oxLabel o)) (elemRow (m.liqLabel j)) x) :
    clean tau x = conv oxInv (elemRow (m.liqLabel j)) := by
  obtain ⟨e1, e2, _⟩ := tblRow_count m.liqTable m.liqInv (liq_ok m) j
  have h0 : elemRow (m.liqLabel j) = count dec (m.liqTable.getD j ("", [])).2 := e1
  rw [h0] at hx ⊢
  have := (solves_conv oxides oxInv ox_ok _ (fun e he => count_zero _ e2 e he) x).mp hx
  rw [this]
  apply clean_fine _ _ _ _ ht
  have hl := liq_ok m
  simp only [invOk, Bool.and_eq_true, beq_iff_eq] at hl
  have hj : (j : ℕ) < m.liqTable.length := by rw [hl.1.1.1]; exact j.2
  refine List.all_eq_true.mp (liq_fine m) _ ?_
  rw [List.getD_eq_getElem _ _ hj]; exact List.getElem_mem hj

theorem ox_exact (m : Model) (tau : ℚ) (ht : tau ≤ 1 / 16) (o : Fin 19) (x : Fin 19 → ℚ)
    (hx : Solves (fun j => elemRow (m.liqLabel j)) (elemRow (oxLabel o)) x) :
    clean tau x = conv m.liqInv (elemRow (oxLabel o)) := by
  obtain ⟨e1, e2, _⟩ := tblRow_count oxides oxInv ox_ok o
  have h0 : elemRow (oxLabel o) = count dec (oxides.getD o ("", [])).2 := e1
  rw [h0] at hx ⊢
  have := (solves_conv m.liqTable m.liqInv (liq_ok m) _ (fun e he => count_zero _ e2 e he) x).mp hx
  rw [this]
  apply clean_fine _ _ _ _ ht
  have hl := ox_ok
  simp only [invOk, Bool.and_eq_true, beq_iff_eq] at hl
  have hj : (o : ℕ) < oxides.length := by rw [hl.1.1.1]; exact o.2
  refine List.all_eq_true.mp (ox_fine m) _ ?_
  rw [List.getD_eq_getElem _ _ hj]; exact List.getElem_mem hj

theorem sol_row (m : Model) (i : ℕ) (hi : i < m.solFormulas.length) :
    ∃ p ∈ m.solTable, m.solFormulas[i] = p.2.1.toList := by
  have hi' : i < m.solTable.length := by simpa [Model.solFormulas] using hi
  refine ⟨m.solTable[i], List.getElem_mem hi', ?_⟩
  simp [Model.solFormulas]

theorem sol_exact (m : Model) (tau : ℚ) (ht : tau ≤ 1 / 16) (i : ℕ) (hi : i < m.solFormulas.length) :
    (∀ x, Solves (fun o => elemRow (oxLabel o)) (elemRow m.solFormulas[i]) x →
      clean tau x = conv oxInv (elemRow m.solFormulas[i])) ∧
    (∀ x, Solves (fun j => elemRow (m.liqLabel j)) (elemRow m.solFormulas[i]) x →
      clean tau x = conv m.liqInv (elemRow m.solFormulas[i])) ∧
    (∀ e, e ∉ els → elemRow m.solFormulas[i] e = 0) ∧
    weight m.solFormulas[i] = ∑ e ∈ Finset.range elements.ne, elemRow m.solFormulas[i] e * elements.wt e := by
  obtain ⟨p, hp, e⟩ := sol_row m i hi
  rw [e]
  have h := List.all_eq_true.mp (sol_ok m) p hp
  simp only [Bool.and_eq_true] at h
  obtain ⟨e1, e2, e3⟩ := sol_count p h.1.1
  refine ⟨?_, ?_, ?_, e3⟩
  · intro x hx
    rw [e1] at hx ⊢
    rw [(solves_conv oxides oxInv ox_ok _ (fun e he => count_zero _ e2 e he) x).mp hx]
    exact clean_fine _ _ h.1.2 _ ht
  · intro x hx
    rw [e1] at hx ⊢
    rw [(solves_conv m.liqTable m.liqInv (liq_ok m) _ (fun e he => count_zero _ e2 e he) x).mp hx]
    exact clean_fine _ _ h.2 _ ht
  · intro k hk
    rw [e1]; exact count_zero _ e2 k hk

/-- Composing conversions: elements into `tbl` directly or by way of another table. -/
theorem conv_unique (tbl : List (String × List Item)) (M : List (List (ℕ × ℚ))) (h : invOk tbl M = true)
    (a b : Fin 19 → ℚ) (hab : ∀ e, ∑ j, a j * tblRow tbl j e = ∑ j, b j * tblRow tbl j e) : a = b := by
  funext i
  have key : ∀ c : Fin 19 → ℚ, ∑ k ∈ Finset.range elements.ne, (∑ j, c j * tblRow tbl j k) * inverse M k i = c i := by
    intro c
    have : ∑ k ∈ Finset.range elements.ne, (∑ j, c j * tblRow tbl j k) * inverse M k i =
        ∑ j, c j * ∑ k ∈ Finset.range elements.ne, tblRow tbl j k * inverse M k i := by
      simp_rw [Finset.sum_mul, Finset.mul_sum]
      rw [Finset.sum_comm]
      exact Finset.sum_congr rfl fun _ _ => Finset.sum_congr rfl fun _ _ => by ring
    rw [this]
    simp only [rightInv tbl M h, mul_ite, mul_one, mul_zero, Finset.sum_ite_eq', Finset.mem_univ, if_true]
  rw [← key a, ← key b]
  exact Finset.sum_congr rfl fun k _ => by rw [hab k]

variable {tau : ℚ} {m : Model} {tb : Tables 19 19 ℚ} {rows : List (SRow 19 19 ℚ)}

/-- C58. The conversion tables the program computes for itself conserve every element, for each of the three
models and every oxide, liquid component and solid in its tables: as many atoms of every element of the periodic table on
both sides. (`tau` is the clean-up threshold `sqrt(DBL_EPSILON)`.) -/
theorem C58_elements_conserved (ht : tau ≤ 1 / 16)
    (h : Computed tau oxLabel m.liqLabel m.solFormulas tb rows) (e : ℕ) :
    (∀ j, ∑ o, tb.liqToOx j o * elemRow (oxLabel o) e = elemRow (m.liqLabel j) e) ∧
    (∀ o, ∑ j, tb.oxToLiq o j * elemRow (m.liqLabel j) e = elemRow (oxLabel o) e) ∧
    ∀ i (hi : i < m.solFormulas.length) (hr : i < rows.length),
      ∑ o, rows[i].solToOx o * elemRow (oxLabel o) e = elemRow m.solFormulas[i] e ∧
      ∑ j, rows[i].solToLiq j * elemRow (m.liqLabel j) e = elemRow m.solFormulas[i] e := by
  refine ⟨fun j => ?_, fun o => ?_, fun i hi hr => ⟨?_, ?_⟩⟩
  · obtain ⟨x, hx, hc⟩ := h.liqToOx j
    obtain ⟨e1, e2, _⟩ := tblRow_count m.liqTable m.liqInv (liq_ok m) j
    rw [hc, liq_exact m tau ht j x hx]
    exact conv_conserves oxides oxInv ox_ok _ (fun e he => by
      change tblRow m.liqTable j e = 0; rw [e1]; exact count_zero _ e2 e he) e
  · obtain ⟨x, hx, hc⟩ := h.oxToLiq o
    obtain ⟨e1, e2, _⟩ := tblRow_count oxides oxInv ox_ok o
    rw [hc, ox_exact m tau ht o x hx]
    exact conv_conserves m.liqTable m.liqInv (liq_ok m) _ (fun e he => by
      change tblRow oxides o e = 0; rw [e1]; exact count_zero _ e2 e he) e
  · obtain ⟨x, hx, hc⟩ := h.solToOx i hi
    obtain ⟨s1, s2, s3, _⟩ := sol_exact m tau ht i hi
    rw [hc, s1 x hx]
    exact conv_conserves oxides oxInv ox_ok _ s3 e
  · obtain ⟨x, hx, hc⟩ := h.solToLiq i hi
    obtain ⟨s1, s2, s3, _⟩ := sol_exact m tau ht i hi
    rw [hc, s2 x hx]
    exact conv_conserves m.liqTable m.liqInv (liq_ok m) _ s3 e

/-- C58. The molecular weight of a solid is the sum of the weights of the oxides it is converted to. -/
theorem C58_weights (ht : tau ≤ 1 / 16) (h : Computed tau oxLabel m.liqLabel m.solFormulas tb rows)
    (i : ℕ) (hi : i < m.solFormulas.length) (hr : i < rows.length) :
    ∑ o, rows[i].solToOx o * weight (oxLabel o) = weight m.solFormulas[i] := by
  obtain ⟨_, _, _, s4⟩ := sol_exact m tau ht i hi
  rw [s4]
  have hw : ∀ o, weight (oxLabel o) = ∑ e ∈ Finset.range elements.ne, elemRow (oxLabel o) e * elements.wt e :=
    fun o => (tblRow_count oxides oxInv ox_ok o).2.2
  simp_rw [hw, Finset.mul_sum]
  rw [Finset.sum_comm]
  refine Finset.sum_congr rfl fun e _ => ?_
  rw [← ((C58_elements_conserved ht h e).2.2 i hi hr).1, Finset.sum_mul]
  exact Finset.sum_congr rfl fun _ _ => by ring

/-- C58. Converting a solid to oxides directly or by way of the liquid gives the same: the condition on the tables under
which nucleation, resorption and assimilation conserve matter (C04-C06, C12) holds for every row of the program's tables. -/
theorem C58_rows_consistent (ht : tau ≤ 1 / 16) (h : Computed tau oxLabel m.liqLabel m.solFormulas tb rows)
    (r : SRow 19 19 ℚ) (hr : r ∈ rows) : Magma.Engine.RowOk tb r := by
  obtain ⟨i, hi, rfl⟩ := List.getElem_of_mem hr
  have hi' : i < m.solFormulas.length := by rw [← h.len]; exact hi
  have : (fun o => ∑ j, rows[i].solToLiq j * tb.liqToOx j o) = rows[i].solToOx := by
    refine conv_unique oxides oxInv ox_ok _ _ fun e => ?_
    obtain ⟨c1, c2, c3⟩ := C58_elements_conserved ht h e
    change ∑ o, (∑ j, rows[i].solToLiq j * tb.liqToOx j o) * elemRow (oxLabel o) e =
      ∑ o, rows[i].solToOx o * elemRow (oxLabel o) e
    rw [(c3 i hi' hi).1, ← (c3 i hi' hi).2]
    simp_rw [Finset.sum_mul]
    rw [Finset.sum_comm]
    refine Finset.sum_congr rfl fun j _ => ?_
    rw [← c1 j, Finset.mul_sum]
    exact Finset.sum_congr rfl fun _ _ => by ring
  intro o
  exact (congrFun this o).symm

/-- C58. Oxides to liquid components and back is the identity, in both orders. -/
theorem C58_inverse (ht : tau ≤ 1 / 16) (h : Computed tau oxLabel m.liqLabel m.solFormulas tb rows) :
    (∀ o o', ∑ j, tb.oxToLiq o j * tb.liqToOx j o' = if o = o' then 1 else 0) ∧
    (∀ j j', ∑ o, tb.liqToOx j o * tb.oxToLiq o j' = if j = j' then 1 else 0) := by
  constructor
  · intro o
    have : (fun o' => ∑ j, tb.oxToLiq o j * tb.liqToOx j o') = fun o' => if o = o' then 1 else 0 := by
      refine conv_unique oxides oxInv ox_ok _ _ fun e => ?_
      obtain ⟨c1, c2, _⟩ := C58_elements_conserved ht h e
      change ∑ o', (∑ j, tb.oxToLiq o j * tb.liqToOx j o') * elemRow (oxLabel o') e =
        ∑ o', (if o = o' then 1 else 0) * elemRow (oxLabel o') e
      simp only [ite_mul, one_mul, zero_mul, Finset.sum_ite_eq, Finset.mem_univ, if_true]
      rw [← c2 o]
      simp_rw [Finset.sum_mul]
      rw [Finset.sum_comm]
      refine Finset.sum_congr rfl fun j _ => ?_
      rw [← c1 j, Finset.mul_sum]
      exact Finset.sum_congr rfl fun _ _ => by ring
    exact fun o' => congrFun this o'
  · intro j
    have : (fun j' => ∑ o, tb.liqToOx j o * tb.oxToLiq o j') = fun j' => if j = j' then 1 else 0 := by
      refine conv_unique m.liqTable m.liqInv (liq_ok m) _ _ fun e => ?_
      obtain ⟨c1, c2, _⟩ := C58_elements_conserved ht h e
      change ∑ j', (∑ o, tb.liqToOx j o * tb.oxToLiq o j') * elemRow (m.liqLabel j') e =
        ∑ j', (if j = j' then 1 else 0) * elemRow (m.liqLabel j') e
      simp only [ite_mul, one_mul, zero_mul, Finset.sum_ite_eq, Finset.mem_univ, if_true]
      rw [← c1 j]
      simp_rw [Finset.sum_mul]
      rw [Finset.sum_comm]
      refine Finset.sum_congr rfl fun o _ => ?_
      rw [← c2 o, Finset.mul_sum]
      exact Finset.sum_congr rfl fun _ _ => by ring
    exact fun j' => congrFun this j'

/-- C58. The computation is well defined: whatever solver is used, there is one result, for any clean-up
threshold up to 1/16. -/
theorem C58_unique (ht : tau ≤ 1 / 16) {tb' : Tables 19 19 ℚ} {rows' : List (SRow 19 19 ℚ)} {tau' : ℚ}
    (ht' : tau' ≤ 1 / 16)
    (h : Computed tau oxLabel m.liqLabel m.solFormulas tb rows)
    (h' : Computed tau' oxLabel m.liqLabel m.solFormulas tb' rows') :
    tb.liqToOx = tb'.liqToOx ∧ tb.oxToLiq = tb'.oxToLiq ∧ rows = rows' := by
  refine ⟨?_, ?_, ?_⟩
  · funext j
    obtain ⟨x, hx, hc⟩ := h.liqToOx j
    obtain ⟨y, hy, hd⟩ := h'.liqToOx j
    rw [hc, hd, liq_exact m tau ht j x hx, liq_exact m tau' ht' j y hy]
  · funext o
    obtain ⟨x, hx, hc⟩ := h.oxToLiq o
    obtain ⟨y, hy, hd⟩ := h'.oxToLiq o
    rw [hc, hd, ox_exact m tau ht o x hx, ox_exact m tau' ht' o y hy]
  · apply List.ext_getElem (by rw [h.len, h'.len])
    intro i h1 h2
    have hi : i < m.solFormulas.length := by rw [← h.len]; exact h1
    obtain ⟨x, hx, hc⟩ := h.solToOx i hi
    obtain ⟨y, hy, hd⟩ := h'.solToOx i hi
    obtain ⟨u, hu, he⟩ := h.solToLiq i hi
    obtain ⟨v, hv, hf⟩ := h'.solToLiq i hi
    obtain ⟨s1, s2, _⟩ := sol_exact m tau ht i hi
    obtain ⟨t1, t2, _⟩ := sol_exact m tau' ht' i hi
    have e1 : rows[i].solToOx = rows'[i].solToOx := by rw [hc, hd, s1 x hx, t1 y hy]
    have e2 : rows[i].solToLiq = rows'[i].solToLiq := by rw [he, hf, s2 u hu, t2 v hv]
    cases hA : rows[i] with
    | mk a b =>
      cases hB : rows'[i] with
      | mk c d =>
        rw [hA, hB] at e1 e2
        simp only at e1 e2
        rw [e1, e2]

/-- Non-vacuity: the tables exist, for every model and threshold up to 1/16. -/
theorem computed_exists (m : Model) (tau : ℚ) (ht : tau ≤ 1 / 16) :
    ∃ tb rows, Computed tau oxLabel m.liqLabel m.solFormulas tb rows := by
  have hl : ∀ j e, e ∉ els → elemRow (m.liqLabel j) e = 0 := fun j e he => by
    change tblRow m.liqTable j e = 0
    rw [(tblRow_count m.liqTable m.liqInv (liq_ok m) j).1]
    exact count_zero _ (tblRow_count m.liqTable m.liqInv (liq_ok m) j).2.1 e he
  have ho : ∀ j e, e ∉ els → elemRow (oxLabel j) e = 0 := fun j e he => by
    change tblRow oxides j e = 0
    rw [(tblRow_count oxides oxInv ox_ok j).1]
    exact count_zero _ (tblRow_count oxides oxInv ox_ok j).2.1 e he
  refine ⟨⟨fun j => conv oxInv (elemRow (m.liqLabel j)), fun o => conv m.liqInv (elemRow (oxLabel o))⟩,
    m.solFormulas.map fun f => ⟨conv oxInv (elemRow f), conv m.liqInv (elemRow f)⟩, ?_⟩
  refine ⟨fun j => ?_, fun o => ?_, by simp, fun i hi => ?_, fun i hi => ?_⟩
  · have hx := (solves_conv oxides oxInv ox_ok _ (hl j) _).mpr rfl
    exact ⟨_, hx, (liq_exact m tau ht j _ hx).symm⟩
  · have hx := (solves_conv m.liqTable m.liqInv (liq_ok m) _ (ho o) _).mpr rfl
    exact ⟨_, hx, (ox_exact m tau ht o _ hx).symm⟩
  · obtain ⟨s1, s2, s3, _⟩ := sol_exact m tau ht i hi
    have hx := (solves_conv oxides oxInv ox_ok _ s3 _).mpr rfl
    refine ⟨_, hx, ?_⟩
    rw [List.getElem_map]
    exact (s1 _ hx).symm
  · obtain ⟨s1, s2, s3, _⟩ := sol_exact m tau ht i hi
    have hx := (solves_conv m.liqTable m.liqInv (liq_ok m) _ s3 _).mpr rfl
    refine ⟨_, hx, ?_⟩
    rw [List.getElem_map]
    exact (s2 _ hx).symm

/-- Rows of the table from `i` on, types only. -/
def Model.typesAfter (m : Model) (i : ℕ) : List Bool := (m.solTable.map (·.1)).drop (i + 1)

theorem digits_foldl (s : List Char) (a : ℚ) :
    s.foldl (fun a c => 10 * a + ((c.toNat - 48 : ℕ) : ℚ)) a = a * 10 ^ s.length + digits s := by
  unfold digits
  induction s generalizing a with
  | nil => simp
  | cons c s ih => simp only [List.foldl_cons, List.length_cons]; rw [ih, ih (10 * 0 + _)]; ring

/-- The value of a decimal numeral, place by place: appending a digit `d` to the integer part makes `10 x + d`, appending one to
the `n` digits after the point adds `d / 10 ^ (n + 1)`, the empty numeral is 0, a numeral without point is its integer part and a
leading minus sign changes the sign. -/
theorem C58_decimal :
    dec [] = 0 ∧
    (∀ (i : List Char) (d : Char), '.' ∉ i → d ≠ '.' → i.head? ≠ some '-' → d ≠ '-' →
      dec (i ++ [d]) = 10 * dec i + ((d.toNat - 48 : ℕ) : ℚ)) ∧
    (∀ i : List Char, '.' ∉ i → i.head? ≠ some '-' → dec (i ++ ['.']) = dec i) ∧
    (∀ (i f : List Char) (d : Char), '.' ∉ i → i.head? ≠ some '-' →
      dec (i ++ '.' :: (f ++ [d])) = dec (i ++ '.' :: f) + ((d.toNat - 48 : ℕ) : ℚ) / 10 ^ (f.length + 1)) ∧
    (∀ s : List Char, s.head? ≠ some '-' → dec ('-' :: s) = -dec s) := by
  have hd : ∀ s : List Char, s.head? ≠ some '-' → dec s = unsigned s := by
    intro s hs
    unfold dec
    split
    · simp at hs
    · rfl
  have ht : ∀ i r : List Char, '.' ∉ i → (i ++ '.' :: r).takeWhile (· ≠ '.') = i ∧ (i ++ '.' :: r).dropWhile (· ≠ '.') = '.' :: r := by
    intro i r hi
    induction i with
    | nil => simp
    | cons c i ih =>
      simp only [List.mem_cons, not_or] at hi
      have := ih hi.2
      have hc : c ≠ '.' := fun e => hi.1 e.symm
      simp [hc] at this ⊢
      exact this
  have hn : ∀ i : List Char, '.' ∉ i → i.takeWhile (· ≠ '.') = i ∧ i.dropWhile (· ≠ '.') = [] := by
    intro i hi
    induction i with
    | nil => simp
    | cons c i ih =>
      simp only [List.mem_cons, not_or] at hi
      have := ih hi.2
      have hc : c ≠ '.' := fun e => hi.1 e.symm
      simp [hc] at this ⊢
      exact this
  have hh : ∀ i r : List Char, i.head? ≠ some '-' → r.head? ≠ some '-' → (i ++ r).head? ≠ some '-' := by
    intro i r hi hr
    cases i with
    | nil => simpa using hr
    | cons c i => simpa using hi
  have hu : ∀ i : List Char, '.' ∉ i → unsigned i = digits i := by
    intro i hi
    unfold unsigned
    simp only [(hn i hi).1, (hn i hi).2]
    simp [digits]
  have hp : ∀ i f : List Char, '.' ∉ i → unsigned (i ++ '.' :: f) = digits i + digits f / 10 ^ f.length := by
    intro i f hi
    unfold unsigned
    simp only [(ht i f hi).1, (ht i f hi).2, List.drop_succ_cons, List.drop_zero]
  have ha : ∀ (f : List Char) (d : Char), digits (f ++ [d]) = 10 * digits f + ((d.toNat - 48 : ℕ) : ℚ) := by
    intro f d
    simp [digits, List.foldl_append]
  refine ⟨by simp [dec, unsigned, digits], ?_, ?_, ?_, ?_⟩
  · intro i d hi hdd hs hm
    rw [hd _ (hh _ _ hs (by simpa using hm)), hd _ hs, hu i hi, hu (i ++ [d]) (by simp [hi, Ne.symm hdd]), ha]
  · intro i hi hs
    rw [hd _ (hh _ _ hs (by simp)), hd _ hs, hp i [] hi, hu i hi]
    simp [digits]
  · intro i f d hi hs
    rw [hd _ (hh _ _ hs (by simp)), hd _ (hh _ _ hs (by simp)), hp _ _ hi, hp _ _ hi, ha]
    simp only [List.length_append, List.length_cons, List.length_nil, zero_add, pow_succ]
    field_simp
    ring
  · intro s hs
    rw [hd s hs]
    rfl

/-- 55.847 is 55847 thousandths. -/
example : dec "55.847".toList = 55847 / 1000 ∧ dec "-0.25".toList = -1 / 4 := by decide +kernel

/-- C58. The layout of the tables of solids: the table starts with a phase, and a PHASE row is a solution (at least two
end-members, no formula of its own) or a pure phase (a formula, no end-members); `na` is the number of
end-members of a solution and 1 for a pure phase, and `nr = na - 1`. -/
theorem C58_layout (m : Model) :
    (m.solTable.getD 0 (false, "", [])).1 = true ∧
    ∀ i < m.solTable.length, (m.solTable.getD i (false, "", [])).1 = true →
      let q := naNr (m.typesAfter i)
      q.2 + 1 = q.1 ∧
      (if (m.solTable.getD i (false, "", [])).2.1 = "" then 2 ≤ q.1 ∧
        ∀ k < q.1, (m.solTable.getD (i + 1 + k) (true, "", [])).1 = false ∧
          (m.solTable.getD (i + 1 + k) (true, "", [])).2.1 ≠ ""
       else q.1 = 1 ∧ (m.solTable.getD (i + 1) (true, "", [])).1 = true) := by
  cases m <;> decide +kernel

end Magma.Support.Tables
