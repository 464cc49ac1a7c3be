import Verif.Engine.AddDropProps

/-! Properties C05 (dropping solids) and C06 (dropping liquids). -/

namespace Magma.Engine

variable {nc nlc : ℕ} {K : Type} [Field K] [LinearOrder K]

theorem dropCopies_spec (tb : Tables nc nlc K) (p : SPhase nc nlc K) (hp : PhaseOk tb p)
    (massout : K) (o : Fin nc) :
    ∀ (xs : List (Inst K)) (l : Fin nlc → K),
      ∑ j, (dropCopies p massout xs l).2.1 j * tb.liqToOx j o +
        ((dropCopies p massout xs l).1.map (soxide p o)).sum =
        ∑ j, l j * tb.liqToOx j o + (xs.map (soxide p o)).sum
  | [], l => by simp [dropCopies]
  | x :: xs, l => by
    unfold dropCopies
    split
    · have ih := dropCopies_spec tb p hp massout o xs (fun j => l j + liqOf p x j)
      simp only [add_mul, Finset.sum_add_distrib, liqOf_oxide tb p hp] at ih
      have h0 : soxide p o (⟨0, x.comps.map fun _ => 0⟩ : Inst K) = 0 := by
        unfold soxide; split
        · simp
        · have : ∀ (rs : List (SRow nc nlc K)) (cs : List K),
              (List.zipWith (fun r c => c * r.solToOx o) rs (cs.map fun _ => 0)).sum = 0 := by
            intro rs
            induction rs with
            | nil => simp
            | cons r rs ih =>
              intro cs
              cases cs with
              | nil => simp
              | cons c cs =>
                have := ih cs
                simp only [List.map_cons, List.zipWith_cons_cons, List.sum_cons, zero_mul, zero_add]
                exact this
          exact this _ _
      simp only [List.map_cons, List.sum_cons, h0]
      linear_combination ih
    · have ih := dropCopies_spec tb p hp massout o xs l
      simp only [List.map_cons, List.sum_cons]
      linear_combination ih

theorem dropCopies_count (p : SPhase nc nlc K) (massout : K) :
    ∀ (xs : List (Inst K)) (l : Fin nlc → K),
      (dropCopies p massout xs l).2.2 = (xs.filter fun x => decide (x.tot < massout)).length
  | [], l => by simp [dropCopies]
  | x :: xs, l => by
    unfold dropCopies
    split
    · rename_i h
      simp [h, dropCopies_count p massout xs]
    · rename_i h
      simp [h, dropCopies_count p massout xs]

theorem dropCopies_kept (p : SPhase nc nlc K) (massout : K) (hm : 0 < massout) :
    ∀ (xs : List (Inst K)) (l : Fin nlc → K),
      ((dropCopies p massout xs l).1.filter fun x => decide (x.tot ≠ 0)) =
        xs.filter fun x => decide (massout ≤ x.tot)
  | [], l => by simp [dropCopies]
  | x :: xs, l => by
    unfold dropCopies
    split
    · rename_i h
      have ih := dropCopies_kept p massout hm xs (fun j => l j + liqOf p x j)
      simp [not_le.2 h] at ih ⊢
      exact ih
    · rename_i h
      have ih := dropCopies_kept p massout hm xs l
      have h1 : massout ≤ x.tot := not_lt.1 h
      have h2 : x.tot ≠ 0 := (lt_of_lt_of_le hm h1).ne'
      simp [h1, h2] at ih ⊢
      exact ih

theorem dropCopies_zero (p : SPhase nc nlc K) (massout : K) :
    ∀ (xs : List (Inst K)) (l : Fin nlc → K), (dropCopies p massout xs l).2.2 = 0 →
      (dropCopies p massout xs l).1 = xs
  | [], l, _ => by simp [dropCopies]
  | x :: xs, l, h => by
    unfold dropCopies at h ⊢
    split
    · rename_i hx; simp [hx] at h
    · rename_i hx
      simp only [hx, if_false] at h ⊢
      rw [dropCopies_zero p massout xs l h]

/-- After closing the gaps exactly the copies that were not below the threshold remain, in order. -/
theorem compact_dropCopies (p : SPhase nc nlc K) (massout : K) (hm : 0 < massout)
    (xs : List (Inst K)) (l : Fin nlc → K) :
    compact (dropCopies p massout xs l).2.2 (dropCopies p massout xs l).1 =
      xs.filter fun x => decide (massout ≤ x.tot) := by
  unfold compact
  split
  · exact dropCopies_kept p massout hm xs l
  · rename_i h
    have h0 : (dropCopies p massout xs l).2.2 = 0 := by omega
    rw [dropCopies_zero p massout xs l h0]
    rw [dropCopies_count, List.length_eq_zero_iff, List.filter_eq_nil_iff] at h0
    rw [eq_comm, List.filter_eq_self]
    intro x hx
    have := h0 x hx
    simpa using this

theorem compact_oxide (p : SPhase nc nlc K) (massout : K) (hm : 0 < massout) (o : Fin nc)
    (xs : List (Inst K)) (l : Fin nlc → K) :
    ((compact (dropCopies p massout xs l).2.2 (dropCopies p massout xs l).1).map
      (soxide p o)).sum = ((dropCopies p massout xs l).1.map (soxide p o)).sum := by
  rw [compact_dropCopies p massout hm]
  induction xs generalizing l with
  | nil => simp [dropCopies]
  | cons x xs ih =>
    unfold dropCopies
    split
    · rename_i h
      have h0 : soxide p o (⟨0, x.comps.map fun _ => 0⟩ : Inst K) = 0 := by
        unfold soxide; split
        · simp
        · have : ∀ (rs : List (SRow nc nlc K)) (cs : List K),
              (List.zipWith (fun r c => c * r.solToOx o) rs (cs.map fun _ => 0)).sum = 0 := by
            intro rs
            induction rs with
            | nil => simp
            | cons r rs ih =>
              intro cs
              cases cs with
              | nil => simp
              | cons c cs =>
                have := ih cs
                simp only [List.map_cons, List.zipWith_cons_cons, List.sum_cons, zero_mul, zero_add]
                exact this
          exact this _ _
      have := ih (fun j => l j + liqOf p x j)
      simp only [List.map_cons, List.sum_cons, h0, zero_add]
      rw [← this, List.filter_cons_of_neg (by simpa using h)]
    · rename_i h
      have := ih l
      rw [List.filter_cons_of_pos (by simpa using h)]
      simp only [List.map_cons, List.sum_cons, this]

/-- What DROP_PHASE must do to one phase: keep exactly the copies not below the threshold, in order
and unchanged, and count one more in/out cycle per dropped copy. -/
def DropOutcome (massout : K) (q q' : SState nc nlc K) : Prop :=
  q'.ph = q.ph ∧ q'.insts = q.insts.filter (fun x => decide (massout ≤ x.tot)) ∧
  q'.cyl + q'.insts.length = q.cyl + q.insts.length

theorem dropSolids_spec (tb : Tables nc nlc K) (massout : K) (hm : 0 < massout) (o : Fin nc) :
    ∀ (qs : List (SState nc nlc K)) (l : Fin nlc → K), (∀ q ∈ qs, PhaseOk tb q.ph) →
      ∑ j, (dropSolids massout qs l).2 j * tb.liqToOx j o +
          solidsOxide (dropSolids massout qs l).1 o =
        ∑ j, l j * tb.liqToOx j o + solidsOxide qs o
  | [], l, _ => by simp [dropSolids]
  | q :: qs, l, h => by
    have h1 := dropCopies_spec tb q.ph (h q (by simp)) massout o q.insts l
    have h2 := compact_oxide q.ph massout hm o q.insts l
    have h3 := dropSolids_spec tb massout hm o qs (dropCopies q.ph massout q.insts l).2.1
      (fun x hx => h x (by simp [hx]))
    simp only [dropSolids, solidsOxide, List.map_cons, List.sum_cons] at h3 ⊢
    rw [h2]
    linear_combination h1 + h3

/-- **C05.** Dropping solids while liquid is present: every oxide total and the bulk are unchanged,
and of every phase exactly the copies below the threshold disappear; liquids other than the first
are untouched. -/
theorem C05_dropping_solids_conserves (tb : Tables nc nlc K) (massout : K) (hm : 0 < massout)
    (s : Sys nc nlc K) (hs : ∀ q ∈ s.solids, PhaseOk tb q.ph) (hl : s.liquids ≠ []) :
    let s' := dropSolidsSys massout s
    (∀ o, total tb s' o = total tb s o) ∧ s'.bulk = s.bulk ∧
    s'.liquids.tail = s.liquids.tail ∧
    List.Forall₂ (DropOutcome massout) s.solids s'.solids := by
  have hout : ∀ (qs : List (SState nc nlc K)) (l : Fin nlc → K),
      List.Forall₂ (DropOutcome massout) qs (dropSolids massout qs l).1 := by
    intro qs
    induction qs with
    | nil => intro l; simp [dropSolids]
    | cons q qs ih =>
      intro l
      simp only [dropSolids]
      refine List.Forall₂.cons ⟨rfl, compact_dropCopies q.ph massout hm q.insts l, ?_⟩ (ih _)
      simp only
      rw [compact_dropCopies q.ph massout hm, dropCopies_count]
      have hpart : ∀ xs : List (Inst K), (xs.filter fun x => decide (x.tot < massout)).length +
          (xs.filter fun x => decide (massout ≤ x.tot)).length = xs.length := by
        intro xs
        induction xs with
        | nil => rfl
        | cons x xs ih =>
          by_cases hx : x.tot < massout
          · rw [List.filter_cons_of_pos (by simpa using hx),
              List.filter_cons_of_neg (by simpa using hx)]
            simp only [List.length_cons]; omega
          · rw [List.filter_cons_of_neg (by simpa using hx),
              List.filter_cons_of_pos (by simpa using hx)]
            simp only [List.length_cons]; omega
      have := hpart q.insts
      omega
  cases hl' : s.liquids with
  | nil => exact absurd hl' hl
  | cons l0 ls =>
    simp only [dropSolidsSys, hl', List.tail_cons, true_and]
    refine ⟨fun o => ?_, hout _ _⟩
    simp only [total, liquidsOxide_cons, hl']
    have := dropSolids_spec tb massout hm o s.solids l0 hs
    linear_combination this

/-- **C05 (no liquid).** Without liquid this code path changes nothing here (the subsolidus branch is
`addOrDropLiquid`, C15). -/
theorem C05_no_liquid (massout : K) (s : Sys nc nlc K) (hl : s.liquids = []) :
    dropSolidsSys massout s = s := by
  simp [dropSolidsSys, hl]

/-! ### C06 -/

theorem sum_getD (ls : List (Fin nlc → K)) (j : Fin nlc) :
    (ls.map fun l => l j).sum = ∑ i ∈ Finset.range ls.length, ls.getD i 0 j := by
  induction ls with
  | nil => simp
  | cons l ls ih =>
    rw [List.length_cons, Finset.sum_range_succ']
    simp only [List.map_cons, List.sum_cons, ih]
    simp [add_comm]

theorem shiftAdd_sum (nl : ℕ) (ls : List (Fin nlc → K)) (j : Fin nlc) :
    ((shiftAdd nl ls).map fun l => l j).sum =
      ∑ i ∈ Finset.range (ls.length - 1), ls.getD i 0 j +
      ∑ i ∈ Finset.range (ls.length - 1), if nl ≤ i then ls.getD (i + 1) 0 j else 0 := by
  rw [← Finset.sum_add_distrib]
  unfold shiftAdd
  rw [List.map_map]
  rw [← List.sum_toFinset _ (List.nodup_range), List.toFinset_range]
  refine Finset.sum_congr rfl fun i _ => ?_
  simp only [Function.comp]
  split <;> simp

theorem sum_shift (f : ℕ → K) (nl n : ℕ) (h : nl < n) :
    (∑ i ∈ Finset.range (n - 1), if nl ≤ i then f (i + 1) else 0) =
      (∑ i ∈ Finset.range (n - 1), if nl < i then f i else 0) +
        (if nl < n - 1 then f (n - 1) else 0) := by
  obtain ⟨m, rfl⟩ : ∃ m, n = m + 1 := ⟨n - 1, by omega⟩
  simp only [Nat.add_sub_cancel]
  clear h
  induction m with
  | zero => simp
  | succ m ih =>
    rw [Finset.sum_range_succ, ih, Finset.sum_range_succ]
    by_cases h1 : nl < m
    · have h2 : nl ≤ m := h1.le
      have h3 : nl < m + 1 := by omega
      simp [h1, h2, h3]
    · by_cases h2 : nl ≤ m
      · have h3 : nl < m + 1 := by omega
        simp [h1, h2, h3]
      · have h3 : ¬ nl < m + 1 := by omega
        simp [h1, h2, h3]

theorem getD_set (ls : List (Fin nlc → K)) (k i : ℕ) (v : Fin nlc → K) (hk : k < ls.length) :
    (ls.set k v).getD i 0 = if i = k then v else ls.getD i 0 := by
  simp only [List.getD_eq_getElem?_getD]
  by_cases h : i = k
  · subst h; simp [hk]
  · rw [List.getElem?_set_ne (Ne.symm h)]; simp [h]

/-- **C06 (exact effect).** Dropping the `nl`-th of `n` liquids: the total of each component grows by
the amounts in the liquids strictly between `nl` and the last one - each of them is counted twice. -/
theorem C06_drop_liquid_total (nl : ℕ) (ls : List (Fin nlc → K)) (hnl : nl < ls.length)
    (h1 : 1 < ls.length) (j : Fin nlc) :
    ((dropLiquid nl ls).map fun l => l j).sum = (ls.map fun l => l j).sum +
      ∑ i ∈ Finset.range (ls.length - 1), if nl < i then ls.getD i 0 j else 0 := by
  obtain ⟨m, hm⟩ : ∃ m, ls.length = m + 1 := ⟨ls.length - 1, by omega⟩
  have e3 := Finset.sum_range_succ (fun i => ls.getD i 0 j) m
  unfold dropLiquid
  by_cases h0 : 0 < nl
  · simp only [h0, if_true]
    set ls' := (ls.set 0 (fun j => ls.getD 0 0 j + ls.getD nl 0 j)).set nl 0 with hls'
    have hlen : ls'.length = ls.length := by simp [hls']
    have hget : ∀ i, ls'.getD i 0 j = if i = nl then 0 else
        (ls.getD i 0 j + if i = 0 then ls.getD nl 0 j else 0) := by
      intro i
      rw [hls', getD_set _ _ _ _ (by simpa using hnl), getD_set _ _ _ _ (by omega)]
      by_cases h1 : i = nl
      · simp [h1]
      · by_cases h2 : i = 0
        · subst h2; simp [h1]
        · simp [h1, h2]
    have hlt : ∀ i, (if nl < i then ls'.getD i 0 j else 0) =
        if nl < i then ls.getD i 0 j else 0 := by
      intro i
      by_cases hi : nl < i
      · rw [if_pos hi, if_pos hi, hget, if_neg (by omega), if_neg (by omega), add_zero]
      · rw [if_neg hi, if_neg hi]
    rw [shiftAdd_sum, hlen, sum_shift (fun i => ls'.getD i 0 j) nl _ hnl,
      Finset.sum_congr rfl (fun i _ => hlt i)]
    rw [sum_getD ls j, hm, Nat.add_sub_cancel]
    have e1 : ∑ i ∈ Finset.range (m + 1), ls'.getD i 0 j =
        ∑ i ∈ Finset.range (m + 1), ls.getD i 0 j := by
      have : ∀ i, ls'.getD i 0 j = ls.getD i 0 j +
          ((if i = 0 then ls.getD nl 0 j else 0) - (if i = nl then ls.getD nl 0 j else 0)) := by
        intro i
        rw [hget]
        by_cases h1 : i = nl
        · subst h1; simp [h0.ne']
        · simp [h1]
      rw [Finset.sum_congr rfl (fun i _ => this i), Finset.sum_add_distrib,
        Finset.sum_sub_distrib]
      rw [Finset.sum_ite_eq' , Finset.sum_ite_eq']
      simp [show nl < m + 1 by omega]
    have e2 := Finset.sum_range_succ (fun i => ls'.getD i 0 j) m
    rw [e1] at e2
    by_cases hc : nl < m
    · rw [if_pos hc]
      linear_combination -e2
    · rw [if_neg hc]
      have : nl = m := by omega
      have hz : ls'.getD m 0 j = 0 := by rw [hget]; simp [this]
      rw [hz] at e2
      linear_combination -e2
  · have h0' : nl = 0 := by omega
    subst h0'
    rw [show (if 0 < 0 then (ls.set 0 fun j => ls.getD 0 0 j + ls.getD 0 0 j).set 0 0 else ls) = ls
      from if_neg (lt_irrefl 0)]
    rw [shiftAdd_sum, sum_shift (fun i => ls.getD i 0 j) 0 _ hnl, sum_getD ls j, hm,
      Nat.add_sub_cancel]
    rw [e3]
    rw [if_pos (by omega : 0 < m)]; ring

/-- A list of at most two liquids loses nothing when one of them is dropped. -/
theorem dropLiquid_two (nl : ℕ) (ls : List (Fin nlc → K)) (hnl : nl < ls.length)
    (h2 : ls.length = 2) (j : Fin nlc) :
    ((dropLiquid nl ls).map fun l => l j).sum = (ls.map fun l => l j).sum := by
  rw [C06_drop_liquid_total nl ls hnl (by omega) j, h2]
  simp

theorem dropLiquid_length (nl : ℕ) (ls : List (Fin nlc → K)) :
    (dropLiquid nl ls).length = ls.length - 1 := by
  unfold dropLiquid shiftAdd
  split <;> simp

/-- **C06 (at most two liquids).** With at most two coexisting liquids the total of every liquid
component, hence of every oxide, is unchanged, and at least one liquid remains if there was one. -/
theorem C06_two_liquids_conserve (tb : Tables nc nlc K) (oxmw : Fin nc → K) (massout : K)
    (multiple : Bool) (ls : List (Fin nlc → K)) (h : ls.length ≤ 2) :
    (∀ j, ((dropLiquids tb oxmw massout multiple ls).map fun l => l j).sum =
      (ls.map fun l => l j).sum) ∧
    (ls ≠ [] → dropLiquids tb oxmw massout multiple ls ≠ []) := by
  unfold dropLiquids
  split
  · rename_i hc
    have h2 : ls.length = 2 := by omega
    rw [h2]
    have one : ∀ (xs : List (Fin nlc → K)) (n : ℕ), xs.length = 1 →
        dropLiquidsLoop tb oxmw massout n 1 xs = xs := by
      intro xs n hx
      cases n with
      | zero => rfl
      | succ n => simp [dropLiquidsLoop, hx]
    unfold dropLiquidsLoop
    rw [if_pos (by omega)]
    split
    · have hl : (dropLiquid 0 ls).length = 1 := by rw [dropLiquid_length, h2]
      rw [one _ _ hl]
      refine ⟨fun j => dropLiquid_two 0 ls (by omega) h2 j, fun _ hn => ?_⟩
      rw [hn] at hl; simp at hl
    · unfold dropLiquidsLoop
      rw [if_pos (by omega)]
      split
      · have hl : (dropLiquid 1 ls).length = 1 := by rw [dropLiquid_length, h2]
        refine ⟨fun j => dropLiquid_two 1 ls (by omega) h2 j, fun _ hn => ?_⟩
        simp only [dropLiquidsLoop] at hn
        rw [hn] at hl; simp at hl
      · exact ⟨fun j => rfl, fun h => h⟩
  · exact ⟨fun j => rfl, fun h => h⟩

/-- **C06 (three liquids).** When the first of three liquids is below the threshold and the new
first one is not, the middle liquid's components are counted twice. -/
theorem C06_three_liquids_duplicate (tb : Tables nc nlc K) (oxmw : Fin nc → K) (massout : K)
    (a b c : Fin nlc → K) (ha : liquidGrams tb oxmw a < massout)
    (hbc : ¬ liquidGrams tb oxmw (fun j => b j + c j) < massout) (j : Fin nlc) :
    ((dropLiquids tb oxmw massout true [a, b, c]).map fun l => l j).sum =
      ([a, b, c].map fun l => l j).sum + b j := by
  have e : dropLiquid 0 [a, b, c] = [fun j => a j + b j, fun j => b j + c j] := by
    simp [dropLiquid, shiftAdd, List.range_succ]
  have h1 : dropLiquidsLoop tb oxmw massout 3 0 [a, b, c] =
      [fun j => a j + b j, fun j => b j + c j] := by
    unfold dropLiquidsLoop
    rw [if_pos (by simp), if_pos (by simpa using ha), e]
    unfold dropLiquidsLoop
    rw [if_pos (by simp), if_neg (by simpa using hbc)]
    unfold dropLiquidsLoop
    simp
  simp only [dropLiquids, List.length_cons, List.length_nil]
  rw [if_pos (by simp), h1]
  simp; ring

/-- Hypotheses of the last theorem are met by three real liquids (one oxide of weight 1). -/
example :
    let tb : Tables 1 1 ℚ := ⟨fun _ _ => 1, fun _ _ => 1⟩
    liquidGrams tb (fun _ => 1) (fun _ => 1/1000) < 1/100 ∧
    ¬ liquidGrams tb (fun _ => 1) (fun _ => (5 : ℚ) + 7) < 1/100 := by
  simp [liquidGrams]; norm_num

/-! ### Concrete assemblage for C04 and C05 -/

/-- One oxide pair, one liquid component pair (identity stoichiometry). -/
def demoTb : Tables 2 2 ℚ := ⟨fun j o => if j = o then 1 else 0, fun j o => if j = o then 1 else 0⟩

/-- A two-end-member solution with a plentiful and a vanishing copy, and an absent pure phase. -/
def demoSys : Sys 2 2 ℚ where
  bulk := ![20, 30]
  liquids := [![10, 10], ![1, 2]]
  solids :=
    [ ⟨⟨⟨![0, 0], ![0, 0]⟩, [⟨![1, 2], ![1, 2]⟩, ⟨![3, 0], ![3, 0]⟩], fun _ => true⟩,
        [⟨1/1000, [1/2000, 1/2000]⟩, ⟨4, [1, 3]⟩], 0⟩,
      ⟨⟨⟨![1, 1], ![1, 1]⟩, [], fun _ => true⟩, [], 0⟩ ]

theorem demo_ok : ∀ q ∈ demoSys.solids, PhaseOk demoTb q.ph := by
  intro q hq
  simp only [demoSys, List.mem_cons, List.not_mem_nil, or_false] at hq
  rcases hq with rfl | rfl
  · refine ⟨by simp, ?_⟩
    intro r hr
    simp only [List.mem_cons, List.not_mem_nil, or_false] at hr
    rcases hr with rfl | rfl <;> intro o <;> fin_cases o <;> simp [demoTb, Fin.sum_univ_two]
  · refine ⟨?_, by simp⟩
    intro _ o
    fin_cases o <;> simp [demoTb, Fin.sum_univ_two]

example : demoSys.liquids ≠ [] ∧
    (dropSolidsSys (1/100) demoSys).solids.map (·.insts) = [[⟨4, [1, 3]⟩], []] ∧
    (dropSolidsSys (1/100) demoSys).liquids.map (fun l => (l 0, l 1)) =
      [(10 + 4/2000, 10 + 2/2000), (1, 2)] := by
  refine ⟨by simp [demoSys], ?_, ?_⟩ <;>
  · simp [demoSys, dropSolidsSys, dropSolids, dropCopies, compact, liqOf]
    norm_num

/-- The pure phase may be added (it is absent and consistent), and with a feasibility test that
wants 9.9 moles of each component the seed is halved. -/
example : ∀ q, demoSys.solids[1]? = some q → PhaseOk demoTb q.ph ∧ q.insts = [] := by
  intro q hq
  refine ⟨demo_ok q (List.mem_of_getElem? hq), ?_⟩
  simp [demoSys] at hq
  subst hq; rfl

example : seedLoop (nc := 2) (fun l => decide ((99/10 : ℚ) ≤ l 0)) (1/1000) ![10, 10]
    ⟨⟨![1, 1], ![1, 1]⟩, [], fun _ => true⟩ [] 5 (1/5) = some (some (1/10)) := by
  simp [seedLoop, seed, liqOf]
  norm_num

end Magma.Engine
