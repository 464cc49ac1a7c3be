import Verif.Engine.FracProps

/-!
C01 continued: the exact value of every bookkeeping scalar after solid/fluid fractionation
(silmin.c 1726-1812), in particular of the references of constant-H, -S and -V runs.
-/

namespace Magma.Engine

variable {nc : ℕ} {K : Type} [Field K] [LinearOrder K]

/-- A withdrawal from the system, as a user would itemise it: oxides, oxygen and grams withdrawn and
the enthalpy, entropy and volume that leave with them. -/
structure Withdrawal (nc : ℕ) (K : Type) where
  ox : Fin nc → K
  oxy : K
  g : K
  h : K
  s : K
  v : K

/-- `m` moles of a pure substance. -/
def ofRow (r : Row nc K) (m : K) : Withdrawal nc K :=
  ⟨fun o => m * r.solToOx o, m * r.oxy, m * r.mw, m * r.h, m * r.s, m * r.v⟩

/-- The mixing contribution of a solution from which `ms` moles of the end-members are taken:
no matter, but enthalpy, entropy and volume. -/
def ofMixing (p : Phase nc K) (ms : List K) : Withdrawal nc K :=
  ⟨fun _ => 0, 0, 0, ms.sum * p.hmix ms, ms.sum * p.smix ms, ms.sum * p.vmix ms⟩

/-- Itemised withdrawals of one copy: everything above `massin` moles, in the old proportions. -/
def withdrawInst (massin : K) (p : Phase nc K) (x : Inst K) : List (Withdrawal nc K) :=
  if x.tot < massin then []
  else if p.ems = [] then [ofRow p.row (x.tot - massin)]
  else
    let ms := x.comps.map fun c => c - massin * (c / x.tot)
    List.zipWith ofRow p.ems ms ++ [ofMixing p ms]

open Classical in
/-- Itemised withdrawals of the whole assemblage, in table order. -/
noncomputable def withdrawals (fl : Flags) (massin : K) (ps : List (PhaseState nc K)) :
    List (Withdrawal nc K) :=
  ps.flatMap fun q =>
    if ShouldFractionate fl q.ph.row.label then q.insts.flatMap (withdrawInst massin q.ph) else []

/-- Booking one withdrawal: a reference is only charged when its constraint is on and the reference
is set (non-zero); oxygen only when the system is buffered. -/
def book (fl : Flags) (a : Acc nc K) (w : Withdrawal nc K) : Acc nc K where
  bulk := fun o => a.bulk o - w.ox o
  oxygen := if fl.buffered then a.oxygen - w.oxy else a.oxygen
  fracMass := a.fracMass + w.g
  refH := if fl.isenthalpic = true ∧ a.refH ≠ 0 then a.refH - w.h else a.refH
  refS := if fl.isentropic = true ∧ a.refS ≠ 0 then a.refS - w.s else a.refS
  refV := if fl.isochoric = true ∧ a.refV ≠ 0 then a.refV - w.v else a.refV

theorem removeRow_book (fl : Flags) (r : Row nc K) (m : K) (a : Acc nc K) :
    removeRow fl r m a = book fl a (ofRow r m) := by
  simp only [removeRow, book, ofRow, guardSub, mul_comm m]

theorem fracComps_book (fl : Flags) (massin tot : K) :
    ∀ (rs : List (Row nc K)) (cs fs : List K) (a : Acc nc K),
      cs.length = rs.length → fs.length = rs.length →
      (fracComps fl massin tot rs cs fs a).1 =
        (List.zipWith ofRow rs (cs.map fun c => c - massin * (c / tot))).foldl (book fl) a
  | [], [], [], a, _, _ => by simp [fracComps]
  | r :: rs, c :: cs, f :: fs, a, h1, h2 => by
    simp only [fracComps, List.map_cons, List.zipWith_cons_cons, List.foldl_cons]
    rw [fracComps_book fl massin tot rs cs fs _ (by simpa using h1) (by simpa using h2),
      removeRow_book]
  | [], _ :: _, _, _, h, _ => by simp at h
  | _ :: _, [], _, _, h, _ => by simp at h
  | [], _, _ :: _, _, _, h => by simp at h
  | _ :: _, _, [], _, _, h => by simp at h

theorem fracInst_book (fl : Flags) (massin : K) (p : Phase nc K) (x f : Inst K) (a : Acc nc K)
    (hx : x.comps.length = p.ems.length) (hf : f.comps.length = p.ems.length) :
    (fracInst fl massin p x f a).1 = (withdrawInst massin p x).foldl (book fl) a := by
  unfold fracInst withdrawInst
  split
  · rfl
  · split
    · simp [removeRow_book]
    · simp only [List.foldl_append, List.foldl_cons, List.foldl_nil]
      rw [← fracComps_book fl massin x.tot p.ems x.comps f.comps a hx hf,
        (fracComps_len fl massin x.tot p.ems x.comps f.comps a hx hf).2.2]
      simp [book, ofMixing, guardSub]

theorem fracInsts_book (fl : Flags) (massin : K) (p : Phase nc K) :
    ∀ (xs fs : List (Inst K)) (a : Acc nc K), xs.length ≤ fs.length →
      (∀ x ∈ xs, x.comps.length = p.ems.length) → (∀ x ∈ fs, x.comps.length = p.ems.length) →
      (fracInsts fl massin p xs fs a).1 =
        (xs.flatMap (withdrawInst massin p)).foldl (book fl) a
  | [], fs, a, _, _, h => by simp [fracInsts]
  | x :: xs, [], a, h, _, _ => by simp at h
  | x :: xs, f :: fs, a, h, hx, hf => by
    simp only [fracInsts, List.flatMap_cons, List.foldl_append]
    rw [fracInsts_book fl massin p xs fs _ (by simpa using h)
      (fun y hy => hx y (by simp [hy])) (fun y hy => hf y (by simp [hy])),
      fracInst_book fl massin p x f a (hx x (by simp)) (hf f (by simp))]

/-- **C01 (ledger).** Bulk, oxygen, fractionated grams and the three constraint references after a
step are exactly those obtained by booking, in table order, one withdrawal per end-member and one
mixing term per solution, of every copy that has to be fractionated. -/
theorem C01_ledger (fl : Flags) (massin : K) (hasLiquid : Bool)
    (ps : List (PhaseState nc K)) (a : Acc nc K) (hwf : ∀ q ∈ ps, WellFormed q)
    (hon : ((fl.fractionateSol || fl.fractionateFlu) && hasLiquid) = true) :
    (fractionateSolids fl massin hasLiquid ps a).1 =
      (withdrawals fl massin ps).foldl (book fl) a := by
  have hsel : (fl.fractionateSol || fl.fractionateFlu) = true := by simp_all
  rw [fractionateSolids, if_pos hon]
  clear hon
  induction ps generalizing a with
  | nil => simp [fracPhases, withdrawals]
  | cons q ps ih =>
    have hq := hwf q (by simp)
    simp only [fracPhases, withdrawals, List.flatMap_cons, List.foldl_append] at ih ⊢
    rw [ih _ (fun x hx => hwf x (by simp [hx]))]
    congr 1
    unfold fracPhase
    simp only
    by_cases hs : selected fl q.ph.row.label = true
    · rw [if_pos hs, if_pos ((selected_iff fl _ hsel).1 hs)]
      exact fracInsts_book fl massin q.ph _ _ _ (growFrac_length _ _ _) hq.1
        (growFrac_wf _ _ _ hq.2)
    · rw [if_neg hs, if_neg (fun h => hs ((selected_iff fl _ hsel).2 h))]
      rfl

theorem book_refs (fl : Flags) (ws : List (Withdrawal nc K)) (a : Acc nc K) :
    (fl.isenthalpic = true → (∀ k < ws.length, a.refH ≠ ((ws.take k).map (·.h)).sum) →
      (ws.foldl (book fl) a).refH = a.refH - (ws.map (·.h)).sum) ∧
    (fl.isentropic = true → (∀ k < ws.length, a.refS ≠ ((ws.take k).map (·.s)).sum) →
      (ws.foldl (book fl) a).refS = a.refS - (ws.map (·.s)).sum) ∧
    (fl.isochoric = true → (∀ k < ws.length, a.refV ≠ ((ws.take k).map (·.v)).sum) →
      (ws.foldl (book fl) a).refV = a.refV - (ws.map (·.v)).sum) ∧
    (fl.buffered = true → (ws.foldl (book fl) a).oxygen = a.oxygen - (ws.map (·.oxy)).sum) ∧
    (fl.isenthalpic = true → a.refH = 0 → (ws.foldl (book fl) a).refH = 0) := by
  induction ws generalizing a with
  | nil => simp
  | cons w ws ih =>
    obtain ⟨i1, i2, i3, i4, i5⟩ := ih (book fl a w)
    refine ⟨fun h hk => ?_, fun h hk => ?_, fun h hk => ?_, fun h => ?_, fun h h0 => ?_⟩
    · have e : (book fl a w).refH = a.refH - w.h := by
        have := hk 0 (by simp)
        simp only [List.take_zero, List.map_nil, List.sum_nil] at this
        simp [book, h, this]
      rw [List.foldl_cons, i1 h, e]
      · simp only [List.map_cons, List.sum_cons]; ring
      · intro k hk' hc
        refine hk (k + 1) (by simpa using hk') ?_
        rw [e] at hc
        simp only [List.take_succ_cons, List.map_cons, List.sum_cons]
        linear_combination hc
    · have e : (book fl a w).refS = a.refS - w.s := by
        have := hk 0 (by simp)
        simp only [List.take_zero, List.map_nil, List.sum_nil] at this
        simp [book, h, this]
      rw [List.foldl_cons, i2 h, e]
      · simp only [List.map_cons, List.sum_cons]; ring
      · intro k hk' hc
        refine hk (k + 1) (by simpa using hk') ?_
        rw [e] at hc
        simp only [List.take_succ_cons, List.map_cons, List.sum_cons]
        linear_combination hc
    · have e : (book fl a w).refV = a.refV - w.v := by
        have := hk 0 (by simp)
        simp only [List.take_zero, List.map_nil, List.sum_nil] at this
        simp [book, h, this]
      rw [List.foldl_cons, i3 h, e]
      · simp only [List.map_cons, List.sum_cons]; ring
      · intro k hk' hc
        refine hk (k + 1) (by simpa using hk') ?_
        rw [e] at hc
        simp only [List.take_succ_cons, List.map_cons, List.sum_cons]
        linear_combination hc
    · rw [List.foldl_cons, i4 h]
      simp only [book, h, if_true, List.map_cons, List.sum_cons]; ring
    · rw [List.foldl_cons]
      exact i5 h (by simp [book, h0])

/-- **C01 (energy budget).** In a constant-H (S, V) run whose reference does not pass through the
value 0 on the way, the reference loses exactly the enthalpy (entropy, volume) of what was
fractionated, mixing included; in a buffered run the oxygen content loses exactly the oxygen of it.
If the reference was 0 (not yet set) it stays 0. -/
theorem C01_reference_budget (fl : Flags) (massin : K) (hasLiquid : Bool)
    (ps : List (PhaseState nc K)) (a : Acc nc K) (hwf : ∀ q ∈ ps, WellFormed q)
    (hon : ((fl.fractionateSol || fl.fractionateFlu) && hasLiquid) = true) :
    let r := (fractionateSolids fl massin hasLiquid ps a).1
    let ws := withdrawals fl massin ps
    (fl.isenthalpic = true → (∀ k < ws.length, a.refH ≠ ((ws.take k).map (·.h)).sum) →
      r.refH = a.refH - (ws.map (·.h)).sum) ∧
    (fl.isentropic = true → (∀ k < ws.length, a.refS ≠ ((ws.take k).map (·.s)).sum) →
      r.refS = a.refS - (ws.map (·.s)).sum) ∧
    (fl.isochoric = true → (∀ k < ws.length, a.refV ≠ ((ws.take k).map (·.v)).sum) →
      r.refV = a.refV - (ws.map (·.v)).sum) ∧
    (fl.buffered = true → r.oxygen = a.oxygen - (ws.map (·.oxy)).sum) ∧
    (fl.isenthalpic = true → a.refH = 0 → r.refH = 0) := by
  simp only
  rw [C01_ledger fl massin hasLiquid ps a hwf hon]
  exact book_refs fl _ a

/-- Isenthalpic, buffered version of the demo: quartz (4 moles of enthalpy 5) and the solution
(2/3 · 10 + 4/3 · 20) leave; the reference 1000 is never hit. -/
example :
    let fl : Flags := ⟨true, false, true, true, true, false, false⟩
    let a : Acc 2 ℚ := ⟨![50, 60], 9, 0, 1000, 0, 0⟩
    let r := (fractionateSolids fl 1 true demoPhases a).1
    r.refH = 1000 - (2/3*10 + 4/3*20 + 0 + 4*5) ∧ r.oxygen = 9 - 4/3 ∧
    (∀ q ∈ demoPhases, WellFormed q) := by
  refine ⟨?_, ?_, by simp [demoPhases, WellFormed]⟩ <;>
  · simp [fractionateSolids, demoPhases, fracPhases, fracPhase, selected,
      growFrac, fracInsts, fracInst, fracComps, removeRow, guardSub]
    norm_num

/-- The side condition is needed: when the running reference is exactly zero the next withdrawal is
not charged. -/
theorem C01_reference_zero_skips :
    ∃ (fl : Flags) (ps : List (PhaseState 1 ℚ)) (a : Acc 1 ℚ),
      (∀ q ∈ ps, WellFormed q) ∧ fl.isenthalpic = true ∧ fl.fractionateSol = true ∧
      (fractionateSolids fl 1 true ps a).1.refH ≠
        a.refH - ((withdrawals fl 1 ps).map (·.h)).sum := by
  let fl : Flags := ⟨true, true, true, false, true, false, false⟩
  let p : PhaseState 1 ℚ := ⟨⟨⟨"quartz", ![1], 0, 1, 1, 0, 0⟩, [], fun _ => 0, fun _ => 0,
    fun _ => 0⟩, [⟨2, []⟩, ⟨2, []⟩], []⟩
  refine ⟨fl, [p], ⟨![10], 0, 0, 1, 0, 0⟩, by simp [WellFormed, p], rfl, rfl, ?_⟩
  have hs : ShouldFractionate fl "quartz" := by simp [ShouldFractionate, fl]
  have : withdrawals fl 1 [p] = [ofRow p.ph.row 1, ofRow p.ph.row 1] := by
    simp only [withdrawals, List.flatMap_cons, List.flatMap_nil, p, hs, if_true]
    norm_num [withdrawInst]
  rw [this]
  simp [fl, p, ofRow, fractionateSolids, fracPhases, fracPhase, selected, growFrac, fracInsts,
    fracInst, removeRow, guardSub]
  norm_num

end Magma.Engine
