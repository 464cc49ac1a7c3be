import Verif.Engine.AddDropProps
import Verif.Num.Constraint
import Verif.Num.Min1d

/-!
Model of one minimisation step of the engine at the level of the assemblage: the columns of the constraint
matrix (/repo/sources/equality_constraints.c 233-305), the distribution of the solution over the phases
(/repo/sources/silmin.c 1039-1099, REASSEMBLE_SOLUTION), the feasibility test of a trial step
(/repo/sources/linear_search.c 205-262) and the update (silmin.c 1281-1309, LINEAR_SEARCH).

Simplifications: `double` is the real numbers. The quadratic solver is arbitrary (the vector `z`). A pure
phase has at most one copy (the code gives it one column whatever `nSolidCoexist` is).
-/

namespace Magma.Engine.Balance

open Finset Magma.Num.Constraint

noncomputable section

variable {nc nlc : ℕ}

/-- A column of the constraint matrix: moles of oxides per mole, and the present amount. -/
abbrev Col (nc : ℕ) := (Fin nc → ℝ) × ℝ

/-- Columns are made for non-zero amounts only (equality_constraints.c 253, 273). -/
def colsOf : List (Fin nc → ℝ) → List ℝ → List (Col nc)
  | r :: rs, a :: as => if a ≠ 0 then (r, a) :: colsOf rs as else colsOf rs as
  | _, _ => []

/-- equality_constraints.c 249-263: columns of one liquid. -/
def colsLiq (tb : Tables nc nlc ℝ) (l : Fin nlc → ℝ) : List (Col nc) :=
  colsOf (List.ofFn tb.liqToOx) (List.ofFn l)

/-- equality_constraints.c 267-276: columns of one copy of a solid. -/
def colsInst (p : SPhase nc nlc ℝ) (x : Inst ℝ) : List (Col nc) :=
  if p.ems = [] then [(p.row.solToOx, x.tot)] else colsOf (p.ems.map (·.solToOx)) x.comps

/-- equality_constraints.c 246-281: all columns, liquids first. -/
def columns (tb : Tables nc nlc ℝ) (s : Sys nc nlc ℝ) : List (Col nc) :=
  s.liquids.flatMap (colsLiq tb) ++ s.solids.flatMap fun q => q.insts.flatMap (colsInst q.ph)

/-- silmin.c 1044, 1071, 1082: the change of an amount `a` for the solution element `x`; with a non-linear
constraint the solution is the change itself. -/
def delta (nl : Bool) (x a : ℝ) : ℝ := if nl then x else x - a

/-- silmin.c 1042-1053, 1080-1092 (reading the solution in column order, zero amounts get no element) with
1285, 1296: amounts after the step. `k` is the running index `j` of the C code. -/
def walk (nl : Bool) (lam : ℝ) (x : ℕ → ℝ) : List ℝ → ℕ → List ℝ × ℕ
  | [], k => ([], k)
  | a :: as, k =>
    if a ≠ 0 then
      let r := walk nl lam x as (k + 1)
      ((a + lam * delta nl (x k) a) :: r.1, r.2)
    else
      let r := walk nl lam x as k
      ((a + lam * 0) :: r.1, r.2)

/-- silmin.c 1080-1093: `mTotal`, the sum of the new amounts of a solution for a full step. -/
def mTotal (nl : Bool) (x : ℕ → ℝ) : List ℝ → ℕ → ℝ
  | [], _ => 0
  | a :: as, k => if a ≠ 0 then (if nl then x k + a else x k) + mTotal nl x as (k + 1)
    else mTotal nl x as k

/-- One liquid. -/
def stepLiq (nl : Bool) (lam : ℝ) (x : ℕ → ℝ) (l : Fin nlc → ℝ) (k : ℕ) : (Fin nlc → ℝ) × ℕ :=
  let r := walk nl lam x (List.ofFn l) k
  (fun j => r.1.getD j 0, r.2)

/-- All liquids. -/
def stepLiqs (nl : Bool) (lam : ℝ) (x : ℕ → ℝ) : List (Fin nlc → ℝ) → ℕ → List (Fin nlc → ℝ) × ℕ
  | [], k => ([], k)
  | l :: ls, k =>
    let r := stepLiq nl lam x l k
    let rs := stepLiqs nl lam x ls r.2
    (r.1 :: rs.1, rs.2)

/-- silmin.c 1061-1099 and 1291-1298: one copy of a solid. -/
def stepInst (nl : Bool) (lam : ℝ) (x : ℕ → ℝ) (p : SPhase nc nlc ℝ) (c : Inst ℝ) (k : ℕ) :
    Inst ℝ × ℕ :=
  if p.ems = [] then ({ c with tot := c.tot + lam * delta nl (x k) c.tot }, k + 1)
  else
    let r := walk nl lam x c.comps k
    (⟨c.tot + lam * (mTotal nl x c.comps k - c.tot), r.1⟩, r.2)

/-- All copies of a solid. -/
def stepInsts (nl : Bool) (lam : ℝ) (x : ℕ → ℝ) (p : SPhase nc nlc ℝ) :
    List (Inst ℝ) → ℕ → List (Inst ℝ) × ℕ
  | [], k => ([], k)
  | c :: cs, k =>
    let r := stepInst nl lam x p c k
    let rs := stepInsts nl lam x p cs r.2
    (r.1 :: rs.1, rs.2)

/-- All solids. -/
def stepSolids (nl : Bool) (lam : ℝ) (x : ℕ → ℝ) :
    List (SState nc nlc ℝ) → ℕ → List (SState nc nlc ℝ) × ℕ
  | [], k => ([], k)
  | q :: qs, k =>
    let r := stepInsts nl lam x q.ph q.insts k
    let rs := stepSolids nl lam x qs r.2
    ({ q with insts := r.1 } :: rs.1, rs.2)

/-- The assemblage after the step (without the buffer correction). -/
def stepSys (nl : Bool) (lam : ℝ) (x : ℕ → ℝ) (s : Sys nc nlc ℝ) : Sys nc nlc ℝ :=
  let r := stepLiqs nl lam x s.liquids 0
  { s with liquids := r.1, solids := (stepSolids nl lam x s.solids r.2).1 }

/-- equality_constraints.c 242-284 without buffer: one row per oxide with non-zero bulk moles. -/
def rowsOf (s : Sys nc nlc ℝ) : List (Fin nc) :=
  (List.finRange nc).filter fun o => s.bulk o ≠ 0

/-- equality_constraints.c 255, 270, 274: the constraint matrix. -/
def matrix (tb : Tables nc nlc ℝ) (s : Sys nc nlc ℝ) (i j : ℕ) : ℝ :=
  match (rowsOf s)[i]?, (columns tb s)[j]? with
  | some o, some c => c.1 o
  | _, _ => 0

/-- equality_constraints.c 285 without energy constraint and buffer: right hand side. -/
def rhs (s : Sys nc nlc ℝ) (i : ℕ) : ℝ :=
  match (rowsOf s)[i]? with
  | some o => s.bulk o
  | none => 0

/-- The minimisation step of length `lam` at fixed T and P without buffer: `z` is what the quadratic solver
returned, `h0` uninitialised storage. -/
def minStep (tb : Tables nc nlc ℝ) (z h0 : ℕ → ℝ) (lam : ℝ) (s : Sys nc nlc ℝ) : Sys nc nlc ℝ :=
  stepSys false lam
    (solve (rowsOf s).length (columns tb s).length (matrix tb s) (rhs s) z h0) s

/-! ### Sums over columns -/

/-- Sum over columns of moles of oxide `o` times new amount, `k` = index of the first column. -/
def comb (nl : Bool) (lam : ℝ) (x : ℕ → ℝ) (o : Fin nc) : List (Col nc) → ℕ → ℝ
  | [], _ => 0
  | c :: cs, k => c.1 o * (c.2 + lam * delta nl (x k) c.2) + comb nl lam x o cs (k + 1)

theorem comb_append (nl : Bool) (lam : ℝ) (x : ℕ → ℝ) (o : Fin nc) (a b : List (Col nc)) (k : ℕ) :
    comb nl lam x o (a ++ b) k = comb nl lam x o a k + comb nl lam x o b (k + a.length) := by
  induction a generalizing k with
  | nil => simp [comb]
  | cons c cs ih =>
    simp only [List.cons_append, comb, ih, List.length_cons]
    rw [show k + 1 + cs.length = k + (cs.length + 1) by omega]
    ring

theorem walk_spec (nl : Bool) (lam : ℝ) (x : ℕ → ℝ) (o : Fin nc) (as : List ℝ) :
    ∀ (rs : List (Fin nc → ℝ)) (k : ℕ), rs.length = as.length →
      (List.zipWith (fun r c => c * r o) rs (walk nl lam x as k).1).sum =
        comb nl lam x o (colsOf rs as) k ∧
      (walk nl lam x as k).2 = k + (colsOf rs as).length ∧
      (walk nl lam x as k).1.length = as.length := by
  induction as with
  | nil => intro rs k h; cases rs <;> simp_all [walk, colsOf, comb]
  | cons a as ih =>
    intro rs k h
    cases rs with
    | nil => simp at h
    | cons r rs =>
      have h' : rs.length = as.length := by simpa using h
      by_cases ha : a ≠ 0
      · obtain ⟨h1, h2, h3⟩ := ih rs (k + 1) h'
        simp only [walk, colsOf, if_pos ha, List.zipWith_cons_cons, List.sum_cons, comb, h1, h2, h3,
          List.length_cons]
        refine ⟨by ring, by omega, trivial⟩
      · obtain ⟨h1, h2, h3⟩ := ih rs k h'
        push Not at ha
        subst ha
        simp only [walk, colsOf, ne_eq, not_true_eq_false, if_false, List.zipWith_cons_cons, List.sum_cons,
          h1, h2, h3, List.length_cons]
        simp

theorem zipWith_ofFn {n : ℕ} {α β γ : Type} (f : α → β → γ) (a : Fin n → α) (b : Fin n → β) :
    List.zipWith f (List.ofFn a) (List.ofFn b) = List.ofFn fun i => f (a i) (b i) := by
  apply List.ext_getElem <;> simp

theorem stepLiq_spec (nl : Bool) (lam : ℝ) (x : ℕ → ℝ) (tb : Tables nc nlc ℝ) (l : Fin nlc → ℝ) (k : ℕ)
    (o : Fin nc) :
    ∑ j, (stepLiq nl lam x l k).1 j * tb.liqToOx j o = comb nl lam x o (colsLiq tb l) k ∧
    (stepLiq nl lam x l k).2 = k + (colsLiq tb l).length := by
  obtain ⟨h1, h2, h3⟩ := walk_spec nl lam x o (List.ofFn l) (List.ofFn tb.liqToOx) k (by simp)
  refine ⟨?_, h2⟩
  rw [colsLiq, ← h1]
  have hL : (walk nl lam x (List.ofFn l) k).1 =
      List.ofFn fun j : Fin nlc => (walk nl lam x (List.ofFn l) k).1.getD j 0 := by
    apply List.ext_getElem
    · simp [h3]
    · intro i h1 h2
      simp [List.getD_eq_getElem?_getD, h1]
  rw [hL, zipWith_ofFn, List.sum_ofFn]
  simp [stepLiq]

theorem stepLiqs_spec (nl : Bool) (lam : ℝ) (x : ℕ → ℝ) (tb : Tables nc nlc ℝ) (o : Fin nc)
    (ls : List (Fin nlc → ℝ)) : ∀ k,
    liquidsOxide tb (stepLiqs nl lam x ls k).1 o = comb nl lam x o (ls.flatMap (colsLiq tb)) k ∧
    (stepLiqs nl lam x ls k).2 = k + (ls.flatMap (colsLiq tb)).length := by
  induction ls with
  | nil => intro k; simp [stepLiqs, liquidsOxide, comb]
  | cons l ls ih =>
    intro k
    obtain ⟨h1, h2⟩ := stepLiq_spec nl lam x tb l k o
    obtain ⟨h3, h4⟩ := ih (stepLiq nl lam x l k).2
    rw [h2] at h3 h4
    simp only [stepLiqs, List.flatMap_cons, liquidsOxide_cons, comb_append, h1, h3, h4, h2,
      List.length_append]
    exact ⟨trivial, by omega⟩

theorem stepInst_spec (nl : Bool) (lam : ℝ) (x : ℕ → ℝ) (p : SPhase nc nlc ℝ) (c : Inst ℝ) (k : ℕ)
    (o : Fin nc) (hc : c.comps.length = p.ems.length) :
    soxide p o (stepInst nl lam x p c k).1 = comb nl lam x o (colsInst p c) k ∧
    (stepInst nl lam x p c k).2 = k + (colsInst p c).length := by
  unfold soxide stepInst colsInst
  by_cases hp : p.ems = []
  · simp only [hp, if_true, comb, List.length_singleton]
    exact ⟨by ring, trivial⟩
  · obtain ⟨h1, h2, -⟩ := walk_spec nl lam x o c.comps (p.ems.map (·.solToOx)) k (by simp [hc])
    simp only [hp, if_false]
    refine ⟨?_, h2⟩
    rw [← h1, List.zipWith_map_left]

theorem stepInsts_spec (nl : Bool) (lam : ℝ) (x : ℕ → ℝ) (p : SPhase nc nlc ℝ) (o : Fin nc)
    (cs : List (Inst ℝ)) : ∀ k, (∀ c ∈ cs, c.comps.length = p.ems.length) →
    ((stepInsts nl lam x p cs k).1.map (soxide p o)).sum = comb nl lam x o (cs.flatMap (colsInst p)) k ∧
    (stepInsts nl lam x p cs k).2 = k + (cs.flatMap (colsInst p)).length := by
  induction cs with
  | nil => intro k _; simp [stepInsts, comb]
  | cons c cs ih =>
    intro k hc
    obtain ⟨h1, h2⟩ := stepInst_spec nl lam x p c k o (hc c (by simp))
    obtain ⟨h3, h4⟩ := ih (stepInst nl lam x p c k).2 fun c' h' => hc c' (List.mem_cons_of_mem _ h')
    rw [h2] at h3 h4
    simp only [stepInsts, List.flatMap_cons, List.map_cons, List.sum_cons, comb_append, h1, h3, h4, h2,
      List.length_append]
    exact ⟨trivial, by omega⟩

theorem stepSolids_spec (nl : Bool) (lam : ℝ) (x : ℕ → ℝ) (o : Fin nc) (qs : List (SState nc nlc ℝ)) :
    ∀ k, (∀ q ∈ qs, CopiesOk q) →
    solidsOxide (stepSolids nl lam x qs k).1 o =
      comb nl lam x o (qs.flatMap fun q => q.insts.flatMap (colsInst q.ph)) k := by
  induction qs with
  | nil => intro k _; simp [stepSolids, solidsOxide, comb]
  | cons q qs ih =>
    intro k hq
    obtain ⟨h1, h2⟩ := stepInsts_spec nl lam x q.ph o q.insts k (hq q (by simp))
    have h3 := ih (stepInsts nl lam x q.ph q.insts k).2 fun q' h' => hq q' (List.mem_cons_of_mem _ h')
    unfold solidsOxide at h3
    rw [h2] at h3
    simp only [stepSolids, List.flatMap_cons, solidsOxide, List.map_cons, List.sum_cons, comb_append, h1,
      h3, h2]

/-- Oxides of the assemblage after the step = sum over columns. -/
theorem total_step (nl : Bool) (lam : ℝ) (x : ℕ → ℝ) (tb : Tables nc nlc ℝ) (s : Sys nc nlc ℝ) (o : Fin nc)
    (hs : ∀ q ∈ s.solids, CopiesOk q) :
    total tb (stepSys nl lam x s) o = comb nl lam x o (columns tb s) 0 := by
  obtain ⟨h1, h2⟩ := stepLiqs_spec nl lam x tb o s.liquids 0
  have h3 := stepSolids_spec nl lam x o s.solids (stepLiqs nl lam x s.liquids 0).2 hs
  rw [h2] at h3
  simp only [total, stepSys, h1, h3, h2, columns, comb_append]

theorem comb_range (nl : Bool) (lam : ℝ) (x : ℕ → ℝ) (o : Fin nc) (cs : List (Col nc)) (k : ℕ) :
    comb nl lam x o cs k = ∑ j ∈ range cs.length,
      (match cs[j]? with
        | some c => c.1 o * (c.2 + lam * delta nl (x (k + j)) c.2)
        | none => 0) := by
  induction cs generalizing k with
  | nil => simp [comb]
  | cons c cs ih =>
    rw [comb, ih, List.length_cons, sum_range_succ']
    simp only [List.getElem?_cons_succ, List.getElem?_cons_zero, add_zero]
    rw [add_comm]
    congr 1
    refine sum_congr rfl fun j _ => ?_
    rw [show k + 1 + j = k + (j + 1) by omega]

/-- The assemblage itself (step of length zero). -/
theorem stepSys_zero (nl : Bool) (x : ℕ → ℝ) (tb : Tables nc nlc ℝ) (s : Sys nc nlc ℝ) (o : Fin nc)
    (hs : ∀ q ∈ s.solids, CopiesOk q) : total tb s o = comb nl 0 x o (columns tb s) 0 := by
  have hw : ∀ (as : List ℝ) k, (walk nl 0 x as k).1 = as := by
    intro as
    induction as with
    | nil => intro k; rfl
    | cons a as ih => intro k; by_cases h : a ≠ 0 <;> simp [walk, h, ih]
  have hl : ∀ (l : Fin nlc → ℝ) k, (stepLiq nl 0 x l k).1 = l := by
    intro l k; funext j; simp [stepLiq, hw]
  have hls : ∀ (ls : List (Fin nlc → ℝ)) k, (stepLiqs nl 0 x ls k).1 = ls := by
    intro ls
    induction ls with
    | nil => intro k; rfl
    | cons l ls ih => intro k; simp [stepLiqs, hl, ih]
  have hi : ∀ (p : SPhase nc nlc ℝ) (c : Inst ℝ) k, (stepInst nl 0 x p c k).1 = c := by
    intro p c k
    unfold stepInst
    split_ifs <;> simp [hw]
  have his : ∀ (p : SPhase nc nlc ℝ) (cs : List (Inst ℝ)) k, (stepInsts nl 0 x p cs k).1 = cs := by
    intro p cs
    induction cs with
    | nil => intro k; rfl
    | cons c cs ih => intro k; simp [stepInsts, hi, ih]
  have hss : ∀ (qs : List (SState nc nlc ℝ)) k, (stepSolids nl 0 x qs k).1 = qs := by
    intro qs
    induction qs with
    | nil => intro k; rfl
    | cons q qs ih => intro k; simp [stepSolids, his, ih]
  have : stepSys nl 0 x s = s := by
    simp [stepSys, hls, hss]
  rw [← total_step nl 0 x tb s o hs, this]

/-! ### C49 -/

/-- A copy of a solution is consistent: its recorded total is the sum of its end-member amounts. -/
def TotOk (p : SPhase nc nlc ℝ) (c : Inst ℝ) : Prop := p.ems ≠ [] → c.tot = c.comps.sum

theorem walk_sum (nl : Bool) (lam : ℝ) (x : ℕ → ℝ) (as : List ℝ) :
    ∀ k, (walk nl lam x as k).1.sum = as.sum + lam * (mTotal nl x as k - as.sum) := by
  induction as with
  | nil => intro k; simp [walk, mTotal]
  | cons a as ih =>
    intro k
    by_cases ha : a ≠ 0
    · simp only [walk, mTotal, if_pos ha, List.sum_cons, ih]
      cases nl <;> simp [delta] <;> ring
    · push Not at ha
      subst ha
      simp only [walk, mTotal, ne_eq, not_true_eq_false, if_false, List.sum_cons, ih]
      ring

/-- **C49.** A step of any length, with or without non-linear constraints and whatever solution it follows, keeps
the recorded total of every copy of a solid solution equal to the sum of its end-members. -/
theorem C49_totals_consistent (nl : Bool) (lam : ℝ) (x : ℕ → ℝ) (s : Sys nc nlc ℝ)
    (h : ∀ q ∈ s.solids, ∀ c ∈ q.insts, TotOk q.ph c) :
    ∀ q ∈ (stepSys nl lam x s).solids, ∀ c ∈ q.insts, TotOk q.ph c := by
  have hi : ∀ (p : SPhase nc nlc ℝ) (c : Inst ℝ) k, TotOk p c → TotOk p (stepInst nl lam x p c k).1 := by
    intro p c k hc hp
    have := hc hp
    simp only [stepInst, if_neg hp, walk_sum, ← this]
  have his : ∀ (p : SPhase nc nlc ℝ) (cs : List (Inst ℝ)) k, (∀ c ∈ cs, TotOk p c) →
      ∀ c ∈ (stepInsts nl lam x p cs k).1, TotOk p c := by
    intro p cs
    induction cs with
    | nil => intro k _ c hc; simp [stepInsts] at hc
    | cons c cs ih =>
      intro k hcs c' hc'
      simp only [stepInsts, List.mem_cons] at hc'
      rcases hc' with rfl | hc'
      · exact hi p c k (hcs c (by simp))
      · exact ih _ (fun c h => hcs c (List.mem_cons_of_mem _ h)) c' hc'
  have hss : ∀ (qs : List (SState nc nlc ℝ)) k, (∀ q ∈ qs, ∀ c ∈ q.insts, TotOk q.ph c) →
      ∀ q ∈ (stepSolids nl lam x qs k).1, ∀ c ∈ q.insts, TotOk q.ph c := by
    intro qs
    induction qs with
    | nil => intro k _ q hq; simp [stepSolids] at hq
    | cons q qs ih =>
      intro k hqs q' hq'
      simp only [stepSolids, List.mem_cons] at hq'
      rcases hq' with rfl | hq'
      · exact his q.ph q.insts k (hqs q (by simp))
      · exact ih _ (fun q h => hqs q (List.mem_cons_of_mem _ h)) q' hq'
  exact hss s.solids _ h

/-- The oxide rows of the assemblage are independent: no combination of the oxides present vanishes on
every phase component present. -/
def OxidesIndep (tb : Tables nc nlc ℝ) (s : Sys nc nlc ℝ) : Prop :=
  ∀ a : Fin nc → ℝ, (∀ o, s.bulk o = 0 → a o = 0) →
    (∀ c ∈ columns tb s, ∑ o, a o * c.1 o = 0) → ∀ o, a o = 0

theorem sum_rows (s : Sys nc nlc ℝ) (f : Fin nc → ℝ) :
    ∑ i ∈ range (rowsOf s).length, (match (rowsOf s)[i]? with | some o => f o | none => 0) =
      ∑ o ∈ univ.filter (fun o => s.bulk o ≠ 0), f o := by
  have h1 : ∀ l : List (Fin nc), ∑ i ∈ range l.length, (match l[i]? with | some o => f o | none => 0) =
      (l.map f).sum := by
    intro l
    induction l with
    | nil => simp
    | cons a l ih =>
      rw [List.length_cons, sum_range_succ']
      simp only [List.getElem?_cons_succ, List.getElem?_cons_zero, List.map_cons, List.sum_cons]
      rw [ih, add_comm]
  rw [h1]
  have hnd : (rowsOf s).Nodup := (List.nodup_finRange nc).filter _
  rw [← List.sum_toFinset f hnd]
  congr 1
  ext o
  simp [rowsOf]

theorem indep_matrix (tb : Tables nc nlc ℝ) (s : Sys nc nlc ℝ) (h : OxidesIndep tb s) :
    Indep (rowsOf s).length (columns tb s).length (matrix tb s) := by
  intro a ha i hi
  have hnd : (rowsOf s).Nodup := (List.nodup_finRange nc).filter _
  -- coefficient of an oxide
  set b : Fin nc → ℝ := fun o => if o ∈ rowsOf s then a ((rowsOf s).idxOf o) else 0 with hb
  have hmem : ∀ o, o ∈ rowsOf s ↔ s.bulk o ≠ 0 := by intro o; simp [rowsOf]
  have hb0 : ∀ o, s.bulk o = 0 → b o = 0 := by
    intro o ho
    have : o ∉ rowsOf s := by rw [hmem]; simpa using ho
    simp [hb, this]
  have hbi : ∀ k (hk : k < (rowsOf s).length), b (rowsOf s)[k] = a k := by
    intro k hk
    simp only [hb, List.getElem_mem, if_true]
    rw [hnd.idxOf_getElem]
  have hcol : ∀ c ∈ columns tb s, ∑ o, b o * c.1 o = 0 := by
    intro c hc
    obtain ⟨j, hj, rfl⟩ := List.getElem_of_mem hc
    have h1 := ha j hj
    have h2 : ∑ i ∈ range (rowsOf s).length, a i * matrix tb s i j =
        ∑ i ∈ range (rowsOf s).length,
          (match (rowsOf s)[i]? with
            | some o => b o * ((columns tb s)[j]).1 o
            | none => 0) := by
      refine sum_congr rfl fun k hk => ?_
      rw [mem_range] at hk
      simp only [matrix, List.getElem?_eq_getElem hk, List.getElem?_eq_getElem hj, hbi k hk]
    rw [h2, sum_rows s fun o => b o * ((columns tb s)[j]).1 o] at h1
    rw [← h1]
    symm
    refine sum_subset (filter_subset _ _) fun o _ ho => ?_
    simp only [mem_filter, mem_univ, true_and, not_not] at ho
    rw [hb0 o ho, zero_mul]
  have := h b hb0 hcol (rowsOf s)[i]
  rw [hbi i hi] at this
  exact this

/-- **C49.** A minimisation step at fixed T and P without oxygen buffer: whatever the quadratic solver
returned and whatever the step length, the imbalance of every oxide is multiplied by `1 - lambda`; an
assemblage that adds up to the bulk composition still does after the step. -/
theorem C49_step_conserves_oxides (tb : Tables nc nlc ℝ) (s : Sys nc nlc ℝ) (z h0 : ℕ → ℝ) (lam : ℝ)
    (hs : ∀ q ∈ s.solids, CopiesOk q)
    (hind : OxidesIndep tb s) (hcols : (rowsOf s).length ≤ (columns tb s).length)
    (habs : ∀ o, s.bulk o = 0 → ∀ c ∈ columns tb s, c.1 o = 0) (o : Fin nc) :
    total tb (minStep tb z h0 lam s) o - s.bulk o = (1 - lam) * (total tb s o - s.bulk o) := by
  set x := solve (rowsOf s).length (columns tb s).length (matrix tb s) (rhs s) z h0 with hx
  have ht : total tb (minStep tb z h0 lam s) o = comb false lam x o (columns tb s) 0 :=
    total_step false lam x tb s o hs
  have h0' : total tb s o = comb false 0 x o (columns tb s) 0 := stepSys_zero false x tb s o hs
  rw [ht, h0', comb_range, comb_range]
  by_cases hbo : s.bulk o = 0
  · have hz : ∀ l : ℝ, ∑ j ∈ range (columns tb s).length,
        (match (columns tb s)[j]? with
          | some c => c.1 o * (c.2 + l * delta false (x (0 + j)) c.2)
          | none => 0) = 0 := by
      intro l
      refine sum_eq_zero fun j hj => ?_
      rw [mem_range] at hj
      simp only [List.getElem?_eq_getElem hj]
      rw [habs o hbo _ (List.getElem_mem hj), zero_mul]
    rw [hz, hz, hbo]; ring
  · have hmem : o ∈ rowsOf s := by simp [rowsOf, hbo]
    obtain ⟨i, hi, hio⟩ := List.getElem_of_mem hmem
    have hmet := C48_constraints_met (rowsOf s).length (columns tb s).length hcols (matrix tb s) (rhs s) z
      h0 (indep_matrix tb s hind) i hi
    have hr : rhs s i = s.bulk o := by simp [rhs, List.getElem?_eq_getElem hi, hio]
    rw [hr] at hmet
    have hm : ∀ j (hj : j < (columns tb s).length), matrix tb s i j = ((columns tb s)[j]).1 o := by
      intro j hj
      simp [matrix, List.getElem?_eq_getElem hi, List.getElem?_eq_getElem hj, hio]
    have e1 : ∑ j ∈ range (columns tb s).length,
        (match (columns tb s)[j]? with
          | some c => c.1 o * (c.2 + lam * delta false (x (0 + j)) c.2)
          | none => 0) =
        (1 - lam) * ∑ j ∈ range (columns tb s).length,
          (match (columns tb s)[j]? with
            | some c => c.1 o * (c.2 + 0 * delta false (x (0 + j)) c.2)
            | none => 0) + lam * ∑ j ∈ range (columns tb s).length, matrix tb s i j * x j := by
      rw [mul_sum, mul_sum, ← sum_add_distrib]
      refine sum_congr rfl fun j hj => ?_
      rw [mem_range] at hj
      rw [hm j hj]
      simp only [List.getElem?_eq_getElem hj, delta, Bool.false_eq_true, if_false, zero_add]
      ring
    rw [e1, hmet]
    ring

/-! ### The applied step passed the feasibility test -/

/-- linear_search.c 208-262 (no energy constraint): the trial is admitted when the step is at most 2 in
absolute value, every liquid passes its test, no solid total is negative and every solution with a positive
total passes its test. -/
def trialOk (testLiq : (Fin nlc → ℝ) → Bool) (lam : ℝ) (s' : Sys nc nlc ℝ) : Prop :=
  -2 ≤ lam ∧ lam ≤ 2 ∧ (∀ l ∈ s'.liquids, testLiq l = true) ∧
  ∀ q ∈ s'.solids, ∀ c ∈ q.insts, 0 ≤ c.tot ∧ (0 < c.tot → q.ph.ems ≠ [] → q.ph.test c.comps = true)

open Classical in
/-- linear_search.c 165-262, 665-760 at fixed T and P without buffer: the objective of the line search, the
potential of the trial assemblage (an arbitrary function). -/
def objective (testLiq : (Fin nlc → ℝ) → Bool) (energy : Sys nc nlc ℝ → ℝ) (x : ℕ → ℝ)
    (s : Sys nc nlc ℝ) (lam : ℝ) : Option ℝ :=
  if trialOk testLiq lam (stepSys false lam x s) then some (energy (stepSys false lam x s)) else none

/-- **C49.** The assemblage that the engine keeps after a line search that did not give up has only
non-negative solid amounts, and its liquids and solutions pass their feasibility tests. -/
theorem C49_applied_step_feasible (testLiq : (Fin nlc → ℝ) → Bool) (energy : Sys nc nlc ℝ → ℝ)
    (x : ℕ → ℝ) (s : Sys nc nlc ℝ) (big reltest eps st : ℝ) (maxEval n : ℕ) (hm : 1 ≤ maxEval)
    (hbig : ∀ s', energy s' < big) (res : Magma.Num.Min1d.Search ℝ)
    (h : Magma.Num.Min1d.search (objective testLiq energy x s) big reltest eps maxEval st n 1 = some res) :
    match res with
    | .found b _ _ | .maxIter b _ =>
      (∀ l ∈ (stepSys false b x s).liquids, testLiq l = true) ∧
      ∀ q ∈ (stepSys false b x s).solids, ∀ c ∈ q.insts,
        0 ≤ c.tot ∧ (0 < c.tot → q.ph.ems ≠ [] → q.ph.test c.comps = true)
    | .zero b _ => b < eps := by
  have hb : ∀ y v, objective testLiq energy x s y = some v → v < big := by
    intro y v hv
    unfold objective at hv
    split_ifs at hv
    cases hv
    exact hbig _
  have key := Magma.Num.Min1d.C47_step_feasible (objective testLiq energy x s) big reltest eps maxEval hm hb
    st n 1 res one_pos h
  have hok : ∀ b v, objective testLiq energy x s b = some v → trialOk testLiq b (stepSys false b x s) := by
    intro b v hv
    unfold objective at hv
    split_ifs at hv with h
    exact h
  cases res with
  | found b p last =>
    obtain ⟨-, y, s', v, -, -, hv, -⟩ := key
    exact (hok b v hv).2.2
  | maxIter b last =>
    obtain ⟨y, s', v, -, -, hv, -⟩ := key
    exact (hok b v hv).2.2
  | zero b last => exact key.2.1

/-! ### Oxygen-buffered rows -/

/-- State of the loop over oxides of equality_constraints.c 242-303 with a buffer: the rows so far, each as
its weights on the oxides, and `kMin`. -/
structure BufAcc (nc : ℕ) where
  rows : List (Fin nc → ℝ)
  kMin : Option ℕ

/-- The row of one oxide before merging (Fe2O3 counts twice, equality_constraints.c 288). -/
def unitRow (fe3 o : Fin nc) : Fin nc → ℝ := fun o' => if o' = o then (if o = fe3 then 2 else 1) else 0

/-- equality_constraints.c 242-303 with `fo2Path != FO2_NONE`: one oxide. `none` is a write outside the
array (`cMatrix[kMin]` with `kMin == -1`). -/
def bufRow (fe2 fe3 : Fin nc) (bulk : Fin nc → ℝ) (o : Fin nc) (acc : BufAcc nc) : Option (BufAcc nc) :=
  if bulk o ≠ 0 then
    if o = min fe3 fe2 then some ⟨acc.rows ++ [unitRow fe3 o], some acc.rows.length⟩
    else if o = max fe3 fe2 then
      match acc.kMin with
      | none => none
      | some k => some ⟨acc.rows.modify k (fun r o' => r o' + unitRow fe3 o o'), acc.kMin⟩
    else some ⟨acc.rows ++ [unitRow fe3 o], acc.kMin⟩
  else some acc

/-- The loop over a list of oxides. -/
def bufRows (fe2 fe3 : Fin nc) (bulk : Fin nc → ℝ) : List (Fin nc) → BufAcc nc → Option (BufAcc nc)
  | [], acc => some acc
  | o :: os, acc =>
    match bufRow fe2 fe3 bulk o acc with
    | none => none
    | some acc' => bufRows fe2 fe3 bulk os acc'

/-- equality_constraints.c 211, 217: rows allocated for the mass balance and the redox conditions. -/
def bufAlloc (bulk : Fin nc → ℝ) (nLiq : ℕ) : ℕ :=
  ((List.finRange nc).filter fun o => bulk o ≠ 0).length + (if 1 < nLiq then nLiq - 1 else 0)

/-- equality_constraints.c 308-313: one redox row per liquid (one in all without liquid). -/
def redoxRows (nLiq : ℕ) : ℕ := if nLiq = 0 then 1 else nLiq


theorem bufRows_keep (fe2 fe3 : Fin nc) (bulk : Fin nc → ℝ) (w : Fin nc → ℝ) (i : ℕ) (os : List (Fin nc)) :
    ∀ acc acc' : BufAcc nc, bufRows fe2 fe3 bulk os acc = some acc' → acc.rows[i]? = some w → acc.kMin ≠ some i →
      acc'.rows[i]? = some w ∧ acc'.kMin ≠ some i := by
  induction os with
  | nil => intro acc acc' h; simp only [bufRows, Option.some.injEq] at h; subst h; exact fun a b => ⟨a, b⟩
  | cons o os ih =>
    intro acc acc' h hw hk
    have hi : i < acc.rows.length := by
      by_contra hc
      rw [List.getElem?_eq_none (by omega)] at hw
      cases hw
    rw [bufRows] at h
    cases hb : bufRow fe2 fe3 bulk o acc with
    | none => rw [hb] at h; cases h
    | some acc1 =>
      rw [hb] at h
      refine ih acc1 acc' h ?_ ?_
      all_goals
        unfold bufRow at hb
        split_ifs at hb with h1 h2 h3
        · cases hb
          first
          | exact (by simp only [List.getElem?_append_left hi]; exact hw)
          | exact (by simp only [ne_eq, Option.some.injEq]; omega)
        · cases hkm : acc.kMin with
          | none => rw [hkm] at hb; cases hb
          | some k =>
            rw [hkm] at hb
            cases hb
            have hne : k ≠ i := fun e => hk (by rw [hkm, e])
            first
            | exact (by simp only [List.getElem?_modify, hw]; simp [hne])
            | exact (by simpa using hne)
        · cases hb
          first
          | exact (by simp only [List.getElem?_append_left hi]; exact hw)
          | exact hk
        · cases hb
          first
          | exact hw
          | exact hk

theorem bufRows_other (fe2 fe3 : Fin nc) (bulk : Fin nc → ℝ) (o : Fin nc) (hb : bulk o ≠ 0)
    (h1 : o ≠ min fe3 fe2) (h2 : o ≠ max fe3 fe2) (os : List (Fin nc)) :
    ∀ acc acc' : BufAcc nc, o ∈ os → (∀ k, acc.kMin = some k → k < acc.rows.length) →
      bufRows fe2 fe3 bulk os acc = some acc' → ∃ i : ℕ, acc'.rows[i]? = some (unitRow fe3 o) := by
  induction os with
  | nil => intro acc acc' h; simp at h
  | cons a os ih =>
    intro acc acc' ho hk h
    rw [bufRows] at h
    by_cases hao : a = o
    · subst hao
      have : bufRow fe2 fe3 bulk a acc = some ⟨acc.rows ++ [unitRow fe3 a], acc.kMin⟩ := by
        unfold bufRow
        rw [if_pos hb, if_neg h1, if_neg h2]
      rw [this] at h
      refine ⟨acc.rows.length, (bufRows_keep fe2 fe3 bulk _ acc.rows.length os _ acc' h (by simp) ?_).1⟩
      intro e
      have := hk _ e
      omega
    · have ho' : o ∈ os := by
        rcases List.mem_cons.mp ho with e | e
        · exact absurd e.symm hao
        · exact e
      cases hb1 : bufRow fe2 fe3 bulk a acc with
      | none => rw [hb1] at h; cases h
      | some acc1 =>
        rw [hb1] at h
        refine ih acc1 acc' ho' ?_ h
        unfold bufRow at hb1
        split_ifs at hb1 with g1 g2 g3
        · cases hb1; intro k hk'; cases hk'; simp
        · cases hkm : acc.kMin with
          | none => rw [hkm] at hb1; cases hb1
          | some k =>
            rw [hkm] at hb1
            cases hb1
            intro k' hk'
            cases hk'
            simpa using hk k hkm
        · cases hb1
          intro k hk'
          have := hk k hk'
          simp only [List.length_append, List.length_singleton]
          omega
        · cases hb1; exact hk

theorem bufRows_iron1 (fe2 fe3 : Fin nc) (hne : fe2 ≠ fe3) (bulk : Fin nc → ℝ) (k : ℕ)
    (os : List (Fin nc)) : ∀ (w : Fin nc → ℝ) (acc acc' : BufAcc nc), os.Nodup → min fe3 fe2 ∉ os → acc.kMin = some k →
      acc.rows[k]? = some w → bufRows fe2 fe3 bulk os acc = some acc' →
      acc'.rows[k]? = some (if max fe3 fe2 ∈ os ∧ bulk (max fe3 fe2) ≠ 0 then
        fun o' => w o' + unitRow fe3 (max fe3 fe2) o' else w) := by
  induction os with
  | nil =>
    intro w acc acc' _ _ _ hw h
    simp only [bufRows, Option.some.injEq] at h
    subst h
    simpa using hw
  | cons a os ih =>
    intro w acc acc' hnd hmn hk hw h
    have hnd' := (List.nodup_cons.mp hnd).2
    have ha := (List.nodup_cons.mp hnd).1
    have hmn' : min fe3 fe2 ∉ os := fun e => hmn (List.mem_cons_of_mem _ e)
    have hamn : a ≠ min fe3 fe2 := fun e => hmn (by rw [e]; simp)
    have hlt : k < acc.rows.length := by
      by_contra hc
      rw [List.getElem?_eq_none (by omega)] at hw
      cases hw
    rw [bufRows] at h
    by_cases hb : bulk a ≠ 0
    · by_cases hmx : a = max fe3 fe2
      · have hr : bufRow fe2 fe3 bulk a acc = some ⟨acc.rows.modify k
            (fun r o' => r o' + unitRow fe3 a o'), some k⟩ := by
          unfold bufRow
          rw [if_pos hb, if_neg hamn, if_pos hmx, hk]
        rw [hr] at h
        have := ih (fun o' => w o' + unitRow fe3 a o') _ acc' hnd' hmn' rfl (by
          show (acc.rows.modify k (fun r o' => r o' + unitRow fe3 a o'))[k]? =
            some (fun o' => w o' + unitRow fe3 a o')
          simp [List.getElem?_modify, hw]) h
        rw [this]
        have hno : max fe3 fe2 ∉ os := hmx ▸ ha
        simp only [hno, false_and, if_false]
        rw [if_pos ⟨by rw [hmx]; simp, hmx ▸ hb⟩, hmx]
      · have hr : bufRow fe2 fe3 bulk a acc = some ⟨acc.rows ++ [unitRow fe3 a], acc.kMin⟩ := by
          unfold bufRow
          rw [if_pos hb, if_neg hamn, if_neg hmx]
        rw [hr] at h
        have := ih w ⟨acc.rows ++ [unitRow fe3 a], acc.kMin⟩ acc' hnd' hmn' hk (by
          show (acc.rows ++ [unitRow fe3 a])[k]? = some w
          rw [List.getElem?_append_left hlt]; exact hw) h
        rw [this]
        have : max fe3 fe2 ∈ a :: os ↔ max fe3 fe2 ∈ os := by
          simp only [List.mem_cons, Ne.symm hmx, false_or]
        simp only [this]
    · have hr : bufRow fe2 fe3 bulk a acc = some acc := by
        unfold bufRow
        rw [if_neg hb]
      rw [hr] at h
      have := ih w acc acc' hnd' hmn' hk hw h
      rw [this]
      push Not at hb
      by_cases hmx : max fe3 fe2 = a
      · rw [hmx, hb]; simp
      · have : max fe3 fe2 ∈ a :: os ↔ max fe3 fe2 ∈ os := by
          simp only [List.mem_cons, hmx, false_or]
        simp only [this]

theorem bufRows_iron (fe2 fe3 : Fin nc) (hne : fe2 ≠ fe3) (bulk : Fin nc → ℝ) (hb2 : bulk fe2 ≠ 0)
    (hb3 : bulk fe3 ≠ 0) (os : List (Fin nc)) : ∀ acc acc' : BufAcc nc, os.Pairwise (· < ·) → fe2 ∈ os → fe3 ∈ os →
      bufRows fe2 fe3 bulk os acc = some acc' →
      ∃ i : ℕ, acc'.rows[i]? = some fun o' => unitRow fe3 fe3 o' + unitRow fe3 fe2 o' := by
  have hmn : bulk (min fe3 fe2) ≠ 0 := by rcases min_choice fe3 fe2 with e | e <;> rw [e] <;> assumption
  have hmx : bulk (max fe3 fe2) ≠ 0 := by rcases max_choice fe3 fe2 with e | e <;> rw [e] <;> assumption
  have hlt : min fe3 fe2 < max fe3 fe2 := by
    rcases lt_or_gt_of_ne hne with h | h
    · rw [min_eq_right h.le, max_eq_left h.le]; exact h
    · rw [min_eq_left h.le, max_eq_right h.le]; exact h
  have hsum : ∀ o', unitRow fe3 (min fe3 fe2) o' + unitRow fe3 (max fe3 fe2) o' =
      unitRow fe3 fe3 o' + unitRow fe3 fe2 o' := by
    intro o'
    rcases lt_or_gt_of_ne hne with h | h
    · rw [min_eq_right h.le, max_eq_left h.le]; ring
    · rw [min_eq_left h.le, max_eq_right h.le]
  induction os with
  | nil => intro acc acc' _ h; simp at h
  | cons a os ih =>
    intro acc acc' hs h2 h3 h
    have hmem2 : min fe3 fe2 ∈ a :: os := by rcases min_choice fe3 fe2 with e | e <;> rw [e] <;> assumption
    have hmem3 : max fe3 fe2 ∈ a :: os := by rcases max_choice fe3 fe2 with e | e <;> rw [e] <;> assumption
    have hs' := List.pairwise_cons.mp hs
    have hnd : os.Nodup := hs'.2.imp fun h => ne_of_lt h
    rw [bufRows] at h
    by_cases hamn : a = min fe3 fe2
    · have hr : bufRow fe2 fe3 bulk a acc = some ⟨acc.rows ++ [unitRow fe3 a], some acc.rows.length⟩ := by
        unfold bufRow
        rw [if_pos (hamn ▸ hmn), if_pos hamn]
      rw [hr] at h
      have hnm : min fe3 fe2 ∉ os := by
        intro e
        have := hs'.1 _ e
        rw [hamn] at this
        exact lt_irrefl _ this
      have hmxos : max fe3 fe2 ∈ os := by
        rcases List.mem_cons.mp hmem3 with e | e
        · rw [hamn] at e; exact absurd e (ne_of_gt hlt)
        · exact e
      have := bufRows_iron1 fe2 fe3 hne bulk acc.rows.length os (unitRow fe3 a) _ acc' hnd hnm rfl
        (by simp) h
      rw [if_pos ⟨hmxos, hmx⟩] at this
      refine ⟨acc.rows.length, ?_⟩
      rw [this, hamn]
      congr 1
      funext o'
      exact hsum o'
    · have hmnos : min fe3 fe2 ∈ os := by
        rcases List.mem_cons.mp hmem2 with e | e
        · exact absurd e.symm hamn
        · exact e
      have hamx : a ≠ max fe3 fe2 := by
        intro e
        have := hs'.1 _ hmnos
        rw [e] at this
        exact absurd this (not_lt.mpr hlt.le)
      have g2 : fe2 ∈ os := by
        rcases List.mem_cons.mp h2 with e | e
        · rcases le_total fe3 fe2 with hh | hh
          · exact absurd (e.symm.trans (max_eq_right hh).symm) hamx
          · exact absurd (e.symm.trans (min_eq_right hh).symm) hamn
        · exact e
      have g3 : fe3 ∈ os := by
        rcases List.mem_cons.mp h3 with e | e
        · rcases le_total fe3 fe2 with hh | hh
          · exact absurd (e.symm.trans (min_eq_left hh).symm) hamn
          · exact absurd (e.symm.trans (max_eq_left hh).symm) hamx
        · exact e
      cases hb1 : bufRow fe2 fe3 bulk a acc with
      | none => rw [hb1] at h; cases h
      | some acc1 =>
        rw [hb1] at h
        exact ih acc1 acc' hs'.2 g2 g3 h

/-- When both iron oxides are present the loop is defined. -/
theorem bufRows_defined (fe2 fe3 : Fin nc) (hne : fe2 ≠ fe3) (bulk : Fin nc → ℝ) (os : List (Fin nc)) :
    ∀ acc : BufAcc nc, os.Pairwise (· < ·) →
      (bufRows fe2 fe3 bulk os acc = none ↔
        acc.kMin = none ∧ max fe3 fe2 ∈ os ∧ bulk (max fe3 fe2) ≠ 0 ∧
          ¬ (min fe3 fe2 ∈ os ∧ bulk (min fe3 fe2) ≠ 0)) := by
  have hlt : min fe3 fe2 < max fe3 fe2 := by
    rcases lt_or_gt_of_ne hne with h | h
    · rw [min_eq_right h.le, max_eq_left h.le]; exact h
    · rw [min_eq_left h.le, max_eq_right h.le]; exact h
  induction os with
  | nil => intro acc _; simp [bufRows]
  | cons a os ih =>
    intro acc hs
    have hs' := List.pairwise_cons.mp hs
    rw [bufRows]
    by_cases hb : bulk a ≠ 0
    · by_cases hamn : a = min fe3 fe2
      · have hr : bufRow fe2 fe3 bulk a acc = some ⟨acc.rows ++ [unitRow fe3 a], some acc.rows.length⟩ := by
          unfold bufRow
          rw [if_pos hb, if_pos hamn]
        rw [hr]
        simp only
        rw [ih _ hs'.2]
        constructor
        · rintro ⟨h, -⟩; cases h
        · rintro ⟨-, -, -, h⟩
          exact absurd ⟨by rw [hamn]; simp, hamn ▸ hb⟩ h
      · by_cases hamx : a = max fe3 fe2
        · have hnm : min fe3 fe2 ∉ a :: os := by
            intro e
            rcases List.mem_cons.mp e with e | e
            · exact hamn e.symm
            · have := hs'.1 _ e
              rw [hamx] at this
              exact absurd this (not_lt.mpr hlt.le)
          cases hk : acc.kMin with
          | none =>
            have hr : bufRow fe2 fe3 bulk a acc = none := by
              unfold bufRow
              rw [if_pos hb, if_neg hamn, if_pos hamx, hk]
            rw [hr]
            simp only [true_iff]
            exact ⟨trivial, by rw [hamx]; simp, hamx ▸ hb, fun h => hnm h.1⟩
          | some k =>
            have hr : bufRow fe2 fe3 bulk a acc = some ⟨acc.rows.modify k
                (fun r o' => r o' + unitRow fe3 a o'), some k⟩ := by
              unfold bufRow
              rw [if_pos hb, if_neg hamn, if_pos hamx, hk]
            rw [hr]
            simp only
            rw [ih _ hs'.2]
            simp
        · have hr : bufRow fe2 fe3 bulk a acc = some ⟨acc.rows ++ [unitRow fe3 a], acc.kMin⟩ := by
            unfold bufRow
            rw [if_pos hb, if_neg hamn, if_neg hamx]
          rw [hr]
          simp only
          rw [ih _ hs'.2]
          simp only [List.mem_cons, Ne.symm hamn, Ne.symm hamx, false_or]
    · have hr : bufRow fe2 fe3 bulk a acc = some acc := by unfold bufRow; rw [if_neg hb]
      rw [hr]
      simp only
      rw [ih _ hs'.2]
      push Not at hb
      by_cases hamn : min fe3 fe2 = a
      · have h1 : max fe3 fe2 ∈ a :: os ↔ max fe3 fe2 ∈ os := by
          simp only [List.mem_cons, ← hamn, (ne_of_gt hlt), false_or]
        rw [h1, hamn, hb]; simp
      · by_cases hamx : max fe3 fe2 = a
        · rw [hamx, hb]; simp
        · simp only [List.mem_cons, hamn, hamx, false_or]

/-- Number of rows produced. -/
theorem bufRows_length (fe2 fe3 : Fin nc) (hne : fe2 ≠ fe3) (bulk : Fin nc → ℝ) (os : List (Fin nc)) :
    ∀ acc acc' : BufAcc nc, os.Nodup → bufRows fe2 fe3 bulk os acc = some acc' →
      acc'.rows.length + (if max fe3 fe2 ∈ os ∧ bulk (max fe3 fe2) ≠ 0 then 1 else 0) =
        acc.rows.length + (os.filter fun o => bulk o ≠ 0).length := by
  induction os with
  | nil => intro acc acc' _ h; simp only [bufRows, Option.some.injEq] at h; subst h; simp
  | cons a os ih =>
    intro acc acc' hnd h
    have hnd' := (List.nodup_cons.mp hnd).2
    have ha := (List.nodup_cons.mp hnd).1
    have hmm : min fe3 fe2 ≠ max fe3 fe2 := by
      rcases lt_or_gt_of_ne hne with h | h
      · rw [min_eq_right h.le, max_eq_left h.le]; exact hne
      · rw [min_eq_left h.le, max_eq_right h.le]; exact hne.symm
    rw [bufRows] at h
    cases hb1 : bufRow fe2 fe3 bulk a acc with
    | none => rw [hb1] at h; cases h
    | some acc1 =>
      rw [hb1] at h
      have := ih acc1 acc' hnd' h
      unfold bufRow at hb1
      split_ifs at hb1 with g1 g2 g3
      · cases hb1
        have hx : max fe3 fe2 ∈ a :: os ↔ max fe3 fe2 ∈ os := by
          rw [g2]; simp only [List.mem_cons, Ne.symm hmm, false_or]
        simp only [List.length_append, List.length_singleton] at this
        simp only [hx, List.filter_cons, g1, ne_eq, not_false_eq_true, decide_true, if_true, List.length_cons]
        simp only [ne_eq] at this
        omega
      · cases hk : acc.kMin with
        | none => rw [hk] at hb1; cases hb1
        | some k =>
          rw [hk] at hb1
          cases hb1
          have hno : max fe3 fe2 ∉ os := g3 ▸ ha
          simp only [hno, false_and, if_false, List.length_modify] at this
          rw [if_pos ⟨by rw [g3]; simp, g3 ▸ g1⟩]
          simp only [List.filter_cons, g1, ne_eq, not_false_eq_true, decide_true, if_true, List.length_cons]
          simp only [ne_eq] at this
          omega
      · cases hb1
        have hx : max fe3 fe2 ∈ a :: os ↔ max fe3 fe2 ∈ os := by
          simp only [List.mem_cons, Ne.symm g3, false_or]
        simp only [List.length_append, List.length_singleton] at this
        simp only [hx, List.filter_cons, g1, ne_eq, not_false_eq_true, decide_true, if_true, List.length_cons]
        simp only [ne_eq] at this
        omega
      · cases hb1
        have hx : (max fe3 fe2 ∈ a :: os ∧ bulk (max fe3 fe2) ≠ 0) ↔
            (max fe3 fe2 ∈ os ∧ bulk (max fe3 fe2) ≠ 0) := by
          simp only [List.mem_cons]
          constructor
          · rintro ⟨e | e, h⟩
            · exact absurd (e ▸ h) g1
            · exact ⟨e, h⟩
          · rintro ⟨e, h⟩; exact ⟨Or.inr e, h⟩
        push Not at g1
        simp only [hx, List.filter_cons, g1, ne_eq, not_true_eq_false, decide_false]
        simpa using this

/-- **C50.** With an oxygen buffer the number of rows written to the constraint matrix equals the number
allocated exactly when both FeO and Fe2O3 are present in the bulk composition. If neither is present, or
only the one that comes first in the oxide table, one row more than allocated is written; if only the one
that comes last is present, the first row is addressed with index -1. -/
theorem C50_buffer_needs_both_iron_oxides (fe2 fe3 : Fin nc) (hne : fe2 ≠ fe3) (bulk : Fin nc → ℝ)
    (nLiq : ℕ) (hl : 1 ≤ nLiq) :
    (bulk fe2 ≠ 0 → bulk fe3 ≠ 0 → ∃ acc, bufRows fe2 fe3 bulk (List.finRange nc) ⟨[], none⟩ = some acc ∧
      acc.rows.length + redoxRows nLiq = bufAlloc bulk nLiq) ∧
    (bulk (max fe3 fe2) = 0 → ∃ acc, bufRows fe2 fe3 bulk (List.finRange nc) ⟨[], none⟩ = some acc ∧
      acc.rows.length + redoxRows nLiq = bufAlloc bulk nLiq + 1) ∧
    (bulk (min fe3 fe2) = 0 → bulk (max fe3 fe2) ≠ 0 →
      bufRows fe2 fe3 bulk (List.finRange nc) ⟨[], none⟩ = none) := by
  have hdef := bufRows_defined fe2 fe3 hne bulk (List.finRange nc) ⟨[], none⟩ (List.pairwise_lt_finRange nc)
  have hlen := bufRows_length fe2 fe3 hne bulk (List.finRange nc) ⟨[], none⟩
  have hred : redoxRows nLiq = (if 1 < nLiq then nLiq - 1 else 0) + 1 := by
    unfold redoxRows
    split_ifs <;> omega
  refine ⟨fun h2 h3 => ?_, fun hx => ?_, fun hn hx => ?_⟩
  · cases hr : bufRows fe2 fe3 bulk (List.finRange nc) ⟨[], none⟩ with
    | none =>
      obtain ⟨-, -, -, h⟩ := hdef.mp hr
      refine absurd ⟨List.mem_finRange _, ?_⟩ h
      rcases min_choice fe3 fe2 with e | e <;> rw [e] <;> assumption
    | some acc =>
      refine ⟨acc, rfl, ?_⟩
      have := hlen acc (List.nodup_finRange nc) hr
      rw [if_pos ⟨List.mem_finRange _, by
        rcases max_choice fe3 fe2 with e | e <;> rw [e] <;> assumption⟩] at this
      simp only [List.length_nil] at this
      rw [hred, bufAlloc]
      omega
  · cases hr : bufRows fe2 fe3 bulk (List.finRange nc) ⟨[], none⟩ with
    | none => exact absurd hx (hdef.mp hr).2.2.1
    | some acc =>
      refine ⟨acc, rfl, ?_⟩
      have := hlen acc (List.nodup_finRange nc) hr
      rw [if_neg (by simp [hx])] at this
      simp only [List.length_nil] at this
      rw [hred, bufAlloc]
      omega
  · exact hdef.mpr ⟨rfl, List.mem_finRange _, hx, fun h => h.2 hn⟩

/-- equality_constraints.c 242-345 with a buffer: mass-balance rows first, then the rows of the redox (and
energy) conditions, `extra`, which depend on the thermodynamic model. -/
def bufMatrix (tb : Tables nc nlc ℝ) (s : Sys nc nlc ℝ) (rows : List (Fin nc → ℝ)) (extra : ℕ → ℕ → ℝ)
    (i j : ℕ) : ℝ :=
  match rows[i]?, (columns tb s)[j]? with
  | some w, some c => ∑ o, w o * c.1 o
  | _, _ => extra i j

/-- **C49.** With an oxygen buffer (both iron oxides present) a step of any length along the computed
direction leaves every oxide other than FeO and Fe2O3 and the total iron FeO + 2 Fe2O3 of the assemblage
exactly as they were, whatever the redox rows and the quadratic solver's result. (The speciation of the
liquids applied afterwards conserves total iron by itself, see `C51_iron_conserved`.) -/
theorem C49_buffered_direction (tb : Tables nc nlc ℝ) (s : Sys nc nlc ℝ) (fe2 fe3 : Fin nc)
    (hne : fe2 ≠ fe3) (h2 : s.bulk fe2 ≠ 0) (h3 : s.bulk fe3 ≠ 0) (acc : BufAcc nc)
    (hacc : bufRows fe2 fe3 s.bulk (List.finRange nc) ⟨[], none⟩ = some acc)
    (nrows : ℕ) (hn : acc.rows.length ≤ nrows) (hcols : nrows ≤ (columns tb s).length)
    (extra : ℕ → ℕ → ℝ) (hind : Indep nrows (columns tb s).length (bufMatrix tb s acc.rows extra))
    (z h0 : ℕ → ℝ) (lam : ℝ) (hs : ∀ q ∈ s.solids, CopiesOk q) :
    let s' := stepSys true lam
      (solve nrows (columns tb s).length (bufMatrix tb s acc.rows extra) (fun _ => 0) z h0) s
    (∀ o, o ≠ fe2 → o ≠ fe3 → s.bulk o ≠ 0 → total tb s' o = total tb s o) ∧
    total tb s' fe2 + 2 * total tb s' fe3 = total tb s fe2 + 2 * total tb s fe3 := by
  intro s'
  set x := solve nrows (columns tb s).length (bufMatrix tb s acc.rows extra) (fun _ => 0) z h0 with hx
  have key : ∀ (i : ℕ) (w : Fin nc → ℝ), acc.rows[i]? = some w →
      ∑ o, w o * total tb s' o = ∑ o, w o * total tb s o := by
    intro i w hw
    have hi : i < acc.rows.length := by
      by_contra hc
      rw [List.getElem?_eq_none (by omega)] at hw
      cases hw
    have hmet := C48_constraints_met nrows (columns tb s).length hcols (bufMatrix tb s acc.rows extra)
      (fun _ => 0) z h0 hind i (by omega)
    have e : ∀ l, ∑ o, w o * comb true l x o (columns tb s) 0 =
        ∑ j ∈ range (columns tb s).length,
          (match (columns tb s)[j]? with
            | some c => (∑ o, w o * c.1 o) * (c.2 + l * x j)
            | none => 0) := by
      intro l
      simp only [comb_range, mul_sum]
      rw [sum_comm]
      refine sum_congr rfl fun j hj => ?_
      rw [mem_range] at hj
      simp only [List.getElem?_eq_getElem hj, delta, if_true, zero_add, sum_mul]
      exact sum_congr rfl fun o _ => by ring
    have e1 : ∀ o, total tb s' o = comb true lam x o (columns tb s) 0 := fun o =>
      total_step true lam x tb s o hs
    have e2 : ∀ o, total tb s o = comb true 0 x o (columns tb s) 0 := fun o =>
      stepSys_zero true x tb s o hs
    simp only [e1, e2]
    rw [e lam, e 0]
    have e3 : ∑ j ∈ range (columns tb s).length,
          (match (columns tb s)[j]? with
            | some c => (∑ o, w o * c.1 o) * (c.2 + lam * x j)
            | none => 0) =
        ∑ j ∈ range (columns tb s).length,
          (match (columns tb s)[j]? with
            | some c => (∑ o, w o * c.1 o) * (c.2 + 0 * x j)
            | none => 0) +
        lam * ∑ j ∈ range (columns tb s).length, bufMatrix tb s acc.rows extra i j * x j := by
      rw [mul_sum, ← sum_add_distrib]
      refine sum_congr rfl fun j hj => ?_
      rw [mem_range] at hj
      simp only [bufMatrix, hw, List.getElem?_eq_getElem hj]
      ring
    rw [e3, hmet]
    ring
  constructor
  · intro o ho2 ho3 hbo
    have h1 : o ≠ min fe3 fe2 := by rcases min_choice fe3 fe2 with e | e <;> rw [e] <;> assumption
    have h1' : o ≠ max fe3 fe2 := by rcases max_choice fe3 fe2 with e | e <;> rw [e] <;> assumption
    obtain ⟨i, hi⟩ := bufRows_other fe2 fe3 s.bulk o hbo h1 h1' (List.finRange nc) ⟨[], none⟩ acc
      (List.mem_finRange o) (by intro k hk; cases hk) hacc
    have := key i _ hi
    simpa [unitRow, ho3] using this
  · obtain ⟨i, hi⟩ := bufRows_iron fe2 fe3 hne s.bulk h2 h3 (List.finRange nc) ⟨[], none⟩ acc
      (List.pairwise_lt_finRange nc) (List.mem_finRange _) (List.mem_finRange _) hacc
    have := key i _ hi
    simp only [unitRow, add_mul, sum_add_distrib, ite_mul, zero_mul, sum_ite_eq', mem_univ, if_true,
      if_neg hne, one_mul] at this
    linarith

/-! ### Concrete case -/

/-- Two oxides that are also the liquid components; a pure solid of composition (2, 1). -/
def exTb : Tables 2 2 ℝ := ⟨fun j o => if j = o then 1 else 0, fun o j => if j = o then 1 else 0⟩

/-- One liquid (1, 2) and one mole of the solid. -/
def exSys : Sys 2 2 ℝ :=
  ⟨fun _ => 3, [fun j => if j = 0 then 1 else 2],
    [⟨⟨⟨fun o => if o = 0 then 2 else 1, fun o => if o = 0 then 2 else 1⟩, [], fun _ => true⟩,
      [⟨1, []⟩], 0⟩]⟩

theorem exCols : columns exTb exSys =
    [(fun o => if (0 : Fin 2) = o then 1 else 0, 1), (fun o => if (1 : Fin 2) = o then 1 else 0, 2),
     (fun o => if o = 0 then 2 else 1, 1)] := by
  simp [columns, exSys, colsLiq, colsInst, exTb, colsOf, List.ofFn_succ]

/-- It satisfies the hypotheses of the theorems. -/
example : OxidesIndep exTb exSys ∧ (rowsOf exSys).length ≤ (columns exTb exSys).length ∧
    (∀ q ∈ exSys.solids, CopiesOk q) ∧ (∀ o, total exTb exSys o = exSys.bulk o) := by
  refine ⟨?_, ?_, ?_, ?_⟩
  · intro a _ h o
    rw [exCols] at h
    have h0 := h _ (List.mem_cons_self)
    have h1 := h _ (List.mem_cons_of_mem _ List.mem_cons_self)
    simp at h0 h1
    fin_cases o
    · exact h0
    · exact h1
  · rw [exCols]
    have : (rowsOf exSys).length ≤ (List.finRange 2).length := List.length_filter_le _ _
    simp only [List.length_finRange] at this
    simp only [List.length_cons, List.length_nil]
    omega
  · intro q hq
    simp only [exSys, List.mem_singleton] at hq
    subst hq
    intro x hx
    simp only [List.mem_singleton] at hx
    subst hx
    rfl
  · intro o
    fin_cases o <;>
      norm_num [total, exSys, exTb, liquidsOxide, solidsOxide, soxide]

/-- A solution of two end-members, the second absent, moved half way to 3 moles of the first. -/
example : stepInst (nc := 2) (nlc := 2) false (1 / 2) (fun _ => 3)
      ⟨⟨fun _ => 1, fun _ => 1⟩, [⟨fun _ => 1, fun _ => 1⟩, ⟨fun _ => 1, fun _ => 1⟩], fun _ => true⟩
      ⟨1, [1, 0]⟩ 0 = ((⟨2, [2, 0]⟩ : Inst ℝ), 1) ∧
    TotOk (nc := 2) (nlc := 2) ⟨⟨fun _ => 1, fun _ => 1⟩, [⟨fun _ => 1, fun _ => 1⟩, ⟨fun _ => 1, fun _ => 1⟩],
      fun _ => true⟩ ⟨1, [1, 0]⟩ := by
  refine ⟨?_, by intro _; norm_num⟩
  norm_num [stepInst, walk, mTotal, delta]
  exact List.cons_ne_nil _ _

/-- The buffered theorem's hypotheses are met too: FeO and Fe2O3 are the two oxides, one liquid and one solid,
one mass balance row and one redox row. -/
example : (exSys.bulk 0 ≠ 0 ∧ exSys.bulk 1 ≠ 0) ∧ ∃ acc : BufAcc 2,
    bufRows 0 1 exSys.bulk (List.finRange 2) ⟨[], none⟩ = some acc ∧ acc.rows.length ≤ 2 ∧
    2 ≤ (columns exTb exSys).length ∧
    Indep 2 (columns exTb exSys).length
      (bufMatrix exTb exSys acc.rows (fun _ j => if j = 0 then 1 else if j = 1 then -1 else 0)) := by
  refine ⟨by simp [exSys], ⟨[fun o' => unitRow 1 0 o' + unitRow 1 1 o'], some 0⟩, ?_, by simp, ?_, ?_⟩
  · have hf : List.finRange 2 = [0, 1] := by decide
    rw [hf]
    simp [bufRows, bufRow, exSys, show min (1 : Fin 2) 0 = 0 from rfl, show max (1 : Fin 2) 0 = 1 from rfl]
  · rw [exCols]; simp
  · intro a h
    rw [exCols] at h
    simp only [List.length_cons, List.length_nil] at h
    have h0 := h 0 (by omega)
    have h1 := h 1 (by omega)
    simp [sum_range_succ, bufMatrix, exCols, unitRow, Fin.sum_univ_two] at h0 h1
    intro i hi
    interval_cases i <;> linarith

end

end Magma.Engine.Balance
