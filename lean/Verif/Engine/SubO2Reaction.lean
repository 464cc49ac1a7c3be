import Verif.Engine.SubO2Props
import Verif.Engine.EvaluateSvd
import Mathlib.Data.List.GetD

/-!
# C75: the reaction found by the least-squares solution, and the one remembered from the last call
-/

namespace Magma.Engine.SubO2

open Finset Magma.Engine.System
open Magma.Engine.Evaluate (Svd IsSvd svSolve solve_exact)

noncomputable section

variable {K : ℕ}

/-! ### Specification -/

/-- What the reaction makes of an oxide: 2 of Fe2O3, -4 of FeO, nothing of the others. -/
def wanted (feo fe2o3 o : ℕ) : ℝ := if o = fe2o3 then 2 else if o = feo then -4 else 0

/-- The coefficients of the columns, oxygen first, are those of `O2 + 4 FeO = 2 Fe2O3`. -/
def Balances (a : Assemblage) (nu : ℕ → ℝ) : Prop :=
  nu 0 = -1 ∧ ∀ o < a.nc,
    ∑ l ∈ range a.cols.length, nu (l + 1) * a.ox (a.cols.getD l (0, 0)).1 o = wanted a.feo a.fe2o3 o

/-- What GSL returns for the matrix it is given; no singular value is between zero and the threshold. -/
def Decomposed (a : Assemblage) (d : Svd) : Prop :=
  (∀ q < nCol a, d.S q = 0 ∨ 1 / 10 ^ 8 ≤ d.S q) ∧
    if nCol a ≤ nRow a then IsSvd (nRow a) (nCol a) (tall a) d else IsSvd (nCol a) (nCol a) (wide a) d

/-- The bulk composition has FeO and Fe2O3 and every oxide of the components present, and no amount is zero. -/
structure Sound (a : Assemblage) : Prop where
  feo : a.feo < a.nc ∧ a.bulk a.feo ≠ 0
  fe2o3 : a.fe2o3 < a.nc ∧ a.bulk a.fe2o3 ≠ 0
  amount : ∀ q ∈ a.cols, a.amount q ≠ 0
  bulk : ∀ q ∈ a.cols, ∀ o < a.nc, a.ox q.1 o ≠ 0 → a.bulk o ≠ 0

/-! ### Lemmas -/

theorem mem_oxides {a : Assemblage} {o : ℕ} : o ∈ oxides a ↔ o < a.nc ∧ a.bulk o ≠ 0 := by
  simp [oxides]

theorem weight_ne {a : Assemblage} (h : Sound a) {j : ℕ} (hj : j < nCol a) : weight a j ≠ 0 := by
  unfold weight
  split
  · norm_num
  · have hl : j - 1 < a.cols.length := by unfold nCol at hj; omega
    rw [List.getD_eq_getElem _ _ hl]
    exact h.amount _ (List.getElem_mem _)

theorem rhs_succ {a : Assemblage} {i : ℕ} (hi : i < (oxides a).length) :
    rhs a (i + 1) = wanted a.feo a.fe2o3 ((oxides a).getD i 0) := by
  unfold rhs nRow
  rw [if_neg (by omega), if_pos (by omega)]
  rfl

/-- A row of the matrix times coefficients. -/
theorem row_sum (a : Assemblage) (x : ℕ → ℝ) (i : ℕ) :
    ∑ k ∈ range (nCol a), stoich a i k * x k = if i = 0 then x 0 else
      ∑ l ∈ range a.cols.length, a.ox (a.cols.getD l (0, 0)).1 ((oxides a).getD (i - 1) 0) * x (l + 1) := by
  unfold nCol
  rw [sum_range_succ']
  unfold stoich
  by_cases hi : i = 0
  · simp [hi]
  · simp [hi]

theorem row_balanced {a : Assemblage} {nu : ℕ → ℝ} (hb : Balances a nu) {i : ℕ} (hi : i < nRow a) :
    ∑ k ∈ range (nCol a), stoich a i k * nu k = rhs a i := by
  rw [row_sum]
  rcases i with _ | i
  · simp [rhs, hb.1]
  · have hi' : i < (oxides a).length := by unfold nRow at hi; omega
    rw [if_neg (by omega), rhs_succ hi', Nat.add_sub_cancel, List.getD_eq_getElem _ _ hi',
      ← hb.2 _ (mem_oxides.1 (List.getElem_mem hi')).1]
    exact sum_congr rfl fun l _ => mul_comm _ _

theorem solution_eq {a : Assemblage} {d : Svd} (h : Sound a) (hd : Decomposed a d) {nu : ℕ → ℝ} (hb : Balances a nu) {i : ℕ}
    (hi : i < nRow a) : ∑ k ∈ range (nCol a), stoich a i k * weight a k * solution a d k = rhs a i := by
  obtain ⟨gap, hd⟩ := hd
  unfold solution
  by_cases hc : nCol a ≤ nRow a
  · simp only [hc, if_true] at hd ⊢
    refine solve_exact hd gap ?_ hi
    intro c hk
    have e : ∀ j ∈ range (nRow a), c j * rhs a j = ∑ k ∈ range (nCol a), c j * tall a j k * (nu k / weight a k) := by
      intro j hj
      rw [← row_balanced hb (mem_range.1 hj), mul_sum]
      refine sum_congr rfl fun k hk => ?_
      have := weight_ne h (mem_range.1 hk)
      unfold tall
      field_simp
    rw [sum_congr rfl e, sum_comm]
    refine sum_eq_zero fun k hk' => ?_
    rw [← sum_mul, hk k (mem_range.1 hk'), zero_mul]
  · simp only [hc, if_false] at hd ⊢
    have hs : IsSvd (nCol a) (nCol a) (fun i j => wide a j i) (flip d) := by
      refine ⟨fun j hj k hk => ?_, hd.orthV, hd.orthU, hd.nonneg⟩
      show wide a k j = _
      rw [hd.prod k hk j hj]
      exact sum_congr rfl fun q _ => by simp only [flip]; ring
    have hx := solve_exact (b := rhs a) hs gap (j := i) ?_ (by omega)
    · rw [← hx]
      refine sum_congr rfl fun k _ => ?_
      rw [wide, if_pos hi]
    · intro c hk
      have e : ∀ j ∈ range (nCol a), c j * rhs a j = ∑ k ∈ range (nCol a), c j * wide a k j * (nu k / weight a k) := by
        intro j hj
        by_cases hjr : j < nRow a
        · rw [← row_balanced hb hjr, mul_sum]
          refine sum_congr rfl fun k hk => ?_
          have := weight_ne h (mem_range.1 hk)
          unfold wide
          rw [if_pos hjr]
          field_simp
        · have h0 : rhs a j = 0 := by
            unfold rhs
            rw [if_neg (by unfold nRow at hjr; omega), if_neg hjr]
          rw [h0, mul_zero]
          refine (sum_eq_zero fun k _ => ?_).symm
          rw [wide, if_neg hjr, mul_zero, zero_mul]
      rw [sum_congr rfl e, sum_comm]
      refine sum_eq_zero fun k hk' => ?_
      rw [← sum_mul, hk k (mem_range.1 hk'), zero_mul]

/-- **C75** (the reaction): if any reaction `O2 + 4 FeO = 2 Fe2O3` can be written in the components present, the least-squares
solution finds one, whether there are more oxides or more components and whatever the amounts are. -/
theorem C75_reaction {a : Assemblage} {d : Svd} (h : Sound a) (hd : Decomposed a d) (he : ∃ nu, Balances a nu) :
    ∃ nu, reaction a d = some nu ∧ Balances a nu := by
  obtain ⟨nu0, hb⟩ := he
  have hs := fun i (hi : i < nRow a) => solution_eq h hd hb hi
  have hs' : ∀ i < nRow a, ∑ k ∈ range (nCol a), stoich a i k * (weight a k * solution a d k) = rhs a i := fun i hi => by
    rw [← hs i hi]; exact sum_congr rfl fun k _ => by ring
  have h0 : 10 * solution a d 0 = -1 := by
    have := hs' 0 (by unfold nRow; omega)
    rw [row_sum, if_pos rfl] at this
    simpa [weight, rhs] using this
  have hx : solution a d 0 ≠ 0 := by intro h'; rw [h'] at h0; norm_num at h0
  have hm : -(solution a d 0 * 10) = 1 := by linarith
  refine ⟨_, by unfold reaction; rw [if_pos ⟨mem_oxides.2 h.feo, mem_oxides.2 h.fe2o3⟩, if_pos hx], ?_, ?_⟩
  · show solution a d 0 * weight a 0 / -(solution a d 0 * 10) = -1
    rw [hm]
    simp only [weight, if_true]
    linarith
  · intro o ho
    show ∑ l ∈ range a.cols.length, solution a d (l + 1) * weight a (l + 1) / -(solution a d 0 * 10)
      * a.ox (a.cols.getD l (0, 0)).1 o = _
    rw [hm]
    by_cases hbo : a.bulk o ≠ 0
    · have hmem := mem_oxides.2 ⟨ho, hbo⟩
      have hlt := List.idxOf_lt_length_of_mem hmem
      have := hs' ((oxides a).idxOf o + 1) (by unfold nRow; omega)
      rw [row_sum, if_neg (by omega), rhs_succ hlt, Nat.add_sub_cancel, List.getD_eq_getElem _ _ hlt,
        List.getElem_idxOf hlt] at this
      rw [← this]
      exact sum_congr rfl fun l _ => by ring
    · have h1 : o ≠ a.fe2o3 := fun e => hbo (e ▸ h.fe2o3.2)
      have h2 : o ≠ a.feo := fun e => hbo (e ▸ h.feo.2)
      rw [wanted, if_neg h1, if_neg h2]
      refine sum_eq_zero fun l hl => ?_
      rw [List.getD_eq_getElem _ _ (mem_range.1 hl)]
      by_contra hne
      exact hbo (h.bulk _ (List.getElem_mem (mem_range.1 hl)) o ho fun h' => hne (by rw [h', mul_zero]))

/-! ### Several calls -/

/-- The memory after a history of calls. -/
def after : List (Assemblage × Svd) → Option Cache → Option Cache
  | [], c => c
  | p :: h, c => after h (call p.1 p.2 c).2

/-- Same oxides and same table of components. -/
def SameTable (a b : Assemblage) : Prop :=
  a.nc = b.nc ∧ a.feo = b.feo ∧ a.fe2o3 = b.fe2o3 ∧ a.ox = b.ox

/-- The remembered reaction is balanced for the remembered columns. -/
def CacheOK (a : Assemblage) : Option Cache → Prop
  | none => True
  | some c => Balances { a with cols := c.cols } c.nu

theorem call_ok {a : Assemblage} {d : Svd} {c : Option Cache} (hc : CacheOK a c) (h : Sound a) (hd : Decomposed a d)
    (he : ∃ nu, Balances a nu) : (∃ nu, (call a d c).1 = some nu ∧ Balances a nu) ∧ CacheOK a (call a d c).2 := by
  unfold call
  by_cases hf : fits a c
  · rw [if_pos hf]
    cases c with
    | none => exact hf.elim
    | some c =>
      have e : ({ a with cols := c.cols } : Assemblage) = a := by rw [← hf.2.1]
      exact ⟨⟨c.nu, rfl, e ▸ hc⟩, hc⟩
  · rw [if_neg hf]
    obtain ⟨nu, hn, hb⟩ := C75_reaction h hd he
    rw [hn]
    exact ⟨⟨nu, rfl, hb⟩, hb⟩

theorem cacheOK_same {a b : Assemblage} (hs : SameTable a b) {c : Option Cache} (h : CacheOK a c) : CacheOK b c := by
  cases c with
  | none => trivial
  | some c =>
    obtain ⟨h1, h2, h3, h4⟩ := hs
    refine ⟨h.1, fun o ho => ?_⟩
    have := h.2 o (show o < a.nc by rw [h1]; exact ho)
    simp only at this ⊢
    rw [← h2, ← h3, ← h4]
    exact this

/-- **C75** (memory): after any history of calls in which a reaction could be written, with the same table of components, the
reaction used by the next call, found or remembered, is one of the components now present: that the bulk composition and the
amounts have changed in between, or that other oxides are present, does no harm. -/
theorem C75_memory (hist : List (Assemblage × Svd)) {a : Assemblage} {d : Svd}
    (hh : ∀ p ∈ hist, SameTable p.1 a ∧ Sound p.1 ∧ Decomposed p.1 p.2 ∧ ∃ nu, Balances p.1 nu)
    (h : Sound a) (hd : Decomposed a d) (he : ∃ nu, Balances a nu) :
    ∃ nu, (call a d (after hist none)).1 = some nu ∧ Balances a nu := by
  have key : ∀ c, CacheOK a c → CacheOK a (after hist c) := by
    induction hist with
    | nil => exact fun c hc => hc
    | cons p t ih =>
      intro c hc
      have hp := hh p (by simp)
      refine ih (fun q hq => hh q (by simp [hq])) _ ?_
      have hs := hp.1
      have hs' : SameTable a p.1 := ⟨hs.1.symm, hs.2.1.symm, hs.2.2.1.symm, hs.2.2.2.symm⟩
      exact cacheOK_same hs (call_ok (cacheOK_same hs' hc) hp.2.1 hp.2.2.1 hp.2.2.2).2
  exact (call_ok (key none trivial) h hd he).1

/-! ### The reaction in the components of the solids -/

/-- The columns: the components present, solid after solid. -/
def colsOf (S : Fin K → Solid) : List (Σ i, Fin (S i).ph.na) :=
  (List.finRange K).flatMap fun i => (S i).ph.slots.map (Sigma.mk i)

/-- The assemblage that the search for the reaction sees is that of the solids; `lab` is the row of a component in the table
of solids and the number of the copy. -/
structure Describes (a : Assemblage) (S : Fin K → Solid) (lab : (Σ i, Fin (S i).ph.na) → Col) : Prop where
  cols : a.cols = (colsOf S).map lab
  ox : ∀ x ∈ colsOf S, ∀ o < a.nc, a.ox (lab x).1 o = (S x.1).ph.ox x.2 o

/-- subSolidusMuO2.c 348-392: `dstoich` by column read as coefficients of the components. -/
def toReaction (S : Fin K → Solid) (nu : ℕ → ℝ) : Reaction S :=
  ⟨nu 0, fun i j => nu ((colsOf S).idxOf ⟨i, j⟩ + 1)⟩

theorem mem_colsOf {S : Fin K → Solid} {x : Σ i, Fin (S i).ph.na} : x ∈ colsOf S ↔ x.2 ∈ (S x.1).on := by
  unfold colsOf Solid.on
  rw [List.mem_flatMap]
  constructor
  · rintro ⟨i, -, h⟩
    obtain ⟨j, hj, rfl⟩ := List.mem_map.1 h
    exact List.mem_toFinset.2 hj
  · intro h
    exact ⟨x.1, List.mem_finRange _, List.mem_map.2 ⟨x.2, List.mem_toFinset.1 h, rfl⟩⟩

theorem nodup_colsOf (S : Fin K → Solid) : (colsOf S).Nodup := by
  unfold colsOf
  rw [List.nodup_flatMap]
  refine ⟨fun i _ => ((List.nodup_finRange _).filter _).map sigma_mk_injective, ?_⟩
  refine (List.nodup_finRange K).imp fun {i i'} hne => ?_
  intro x h h'
  obtain ⟨j, -, rfl⟩ := List.mem_map.1 h
  obtain ⟨j', -, h''⟩ := List.mem_map.1 h'
  exact hne (congrArg Sigma.fst h'').symm

theorem csum_cols (S : Fin K → Solid) (f : ∀ i, Fin (S i).ph.na → ℝ) :
    csum S f = ∑ l ∈ range (colsOf S).length, ((colsOf S)[l]?.map fun x => f x.1 x.2).getD 0 := by
  classical
  have h1 : csum S f = ∑ x ∈ (colsOf S).toFinset, f x.1 x.2 := by
    unfold csum
    rw [← sum_sigma univ (fun i => (S i).on) fun x => f x.1 x.2]
    refine sum_congr ?_ fun _ _ => rfl
    ext x
    simp [mem_colsOf]
  rw [h1, List.sum_toFinset _ (nodup_colsOf S)]
  generalize colsOf S = L
  induction L with
  | nil => rfl
  | cons x t ih => rw [List.map_cons, List.sum_cons, List.length_cons, sum_range_succ', ih, add_comm]; simp

/-- **C75** (the reaction of the components): coefficients that balance by column balance in the components of the solids. -/
theorem C75_columns {a : Assemblage} {S : Fin K → Solid} {lab} (hd : Describes a S lab) {nu : ℕ → ℝ} (hb : Balances a nu) :
    Balanced S a.nc a.feo a.fe2o3 (toReaction S nu) := by
  refine ⟨hb.1, fun o ho => ?_⟩
  have := hb.2 o ho
  rw [wanted] at this
  rw [← this, csum_cols, hd.cols, List.length_map]
  refine sum_congr rfl fun l hl => ?_
  have hl := mem_range.1 hl
  rw [List.getElem?_eq_getElem hl, List.getD_eq_getElem _ _ (by rwa [List.length_map]), List.getElem_map]
  simp only [Option.map_some, Option.getD_some]
  rw [hd.ox _ (List.getElem_mem hl) o ho, toReaction]
  simp only [Sigma.eta]
  rw [(nodup_colsOf S).idxOf_getElem l hl]

end

end Magma.Engine.SubO2
