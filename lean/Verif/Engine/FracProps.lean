import Verif.Engine.Frac

/-! Properties C01: solid and fluid fractionation. -/

namespace Magma.Engine

variable {nc : ℕ} {K : Type} [Field K] [LinearOrder K]

theorem fracComps_len (fl : Flags) (massin tot : K) :
    ∀ (rs : List (Row nc K)) (cs fs : List K) (a : Acc nc K),
      cs.length = rs.length → fs.length = rs.length →
      (fracComps fl massin tot rs cs fs a).2.1 = cs.map (fun c => massin * (c / tot)) ∧
      (fracComps fl massin tot rs cs fs a).2.2.1 =
        List.zipWith (fun c f => f + (c - massin * (c / tot))) cs fs ∧
      (fracComps fl massin tot rs cs fs a).2.2.2 = cs.map (fun c => c - massin * (c / tot))
  | [], [], [], a, _, _ => by simp [fracComps]
  | r :: rs, c :: cs, f :: fs, a, h1, h2 => by
    have ih := fracComps_len fl massin tot rs cs fs
      (removeRow fl r (c - massin * (c / tot)) a) (by simpa using h1) (by simpa using h2)
    simp [fracComps, ih]
  | [], _ :: _, _, _, h, _ => by simp at h
  | _ :: _, [], _, _, h, _ => by simp at h
  | [], _, _ :: _, _, _, h => by simp at h
  | _ :: _, _, [], _, _, h => by simp at h

theorem fracComps_bulk (fl : Flags) (massin tot : K) (o : Fin nc) :
    ∀ (rs : List (Row nc K)) (cs fs : List K) (a : Acc nc K),
      cs.length = rs.length → fs.length = rs.length →
      (fracComps fl massin tot rs cs fs a).1.bulk o =
        a.bulk o - (List.zipWith (fun r c => (c - massin * (c / tot)) * r.solToOx o) rs cs).sum
  | [], [], [], a, _, _ => by simp [fracComps]
  | r :: rs, c :: cs, f :: fs, a, h1, h2 => by
    have ih := fracComps_bulk fl massin tot o rs cs fs
      (removeRow fl r (c - massin * (c / tot)) a) (by simpa using h1) (by simpa using h2)
    simp only [fracComps, ih, List.zipWith_cons_cons, List.sum_cons]
    simp only [removeRow]
    ring
  | [], _ :: _, _, _, h, _ => by simp at h
  | _ :: _, [], _, _, h, _ => by simp at h
  | [], _, _ :: _, _, _, h => by simp at h
  | _ :: _, _, [], _, _, h => by simp at h

theorem zipWith_map_sum (g : K → K) (o : Fin nc) :
    ∀ (rs : List (Row nc K)) (cs : List K),
      (List.zipWith (fun r c => c * r.solToOx o) rs (cs.map g)).sum =
      (List.zipWith (fun r c => g c * r.solToOx o) rs cs).sum
  | [], _ => by simp
  | _ :: _, [] => by simp
  | r :: rs, c :: cs => by simp [zipWith_map_sum g o rs cs]

theorem zipWith_split (g : K → K) (o : Fin nc) :
    ∀ (rs : List (Row nc K)) (cs : List K),
      (List.zipWith (fun r c => (c - g c) * r.solToOx o) rs cs).sum +
      (List.zipWith (fun r c => g c * r.solToOx o) rs cs).sum =
      (List.zipWith (fun r c => c * r.solToOx o) rs cs).sum
  | [], _ => by simp
  | _ :: _, [] => by simp
  | r :: rs, c :: cs => by
    have := zipWith_split g o rs cs
    simp only [List.zipWith_cons_cons, List.sum_cons]
    linear_combination this

theorem zipWith_add (g : K → K) (o : Fin nc) :
    ∀ (rs : List (Row nc K)) (cs fs : List K),
      cs.length = rs.length → fs.length = rs.length →
      (List.zipWith (fun r c => c * r.solToOx o) rs
        (List.zipWith (fun c f => f + g c) cs fs)).sum =
      (List.zipWith (fun r c => c * r.solToOx o) rs fs).sum +
      (List.zipWith (fun r c => g c * r.solToOx o) rs cs).sum
  | [], _, _, _, _ => by simp
  | r :: rs, c :: cs, f :: fs, h1, h2 => by
    have := zipWith_add g o rs cs fs (by simpa using h1) (by simpa using h2)
    simp only [List.zipWith_cons_cons, List.sum_cons]
    linear_combination this
  | _ :: _, [], _, h, _ => by simp at h
  | _ :: _, _, [], _, h => by simp at h

/-- One copy: what leaves the bulk is what enters the reservoir, and is what leaves the copy. -/
theorem fracInst_balance (fl : Flags) (massin : K) (p : Phase nc K) (x f : Inst K) (a : Acc nc K)
    (hx : x.comps.length = p.ems.length) (hf : f.comps.length = p.ems.length) (o : Fin nc) :
    (fracInst fl massin p x f a).1.bulk o + oxideOf p o (fracInst fl massin p x f a).2.2 =
        a.bulk o + oxideOf p o f ∧
    (fracInst fl massin p x f a).1.bulk o - oxideOf p o (fracInst fl massin p x f a).2.1 =
        a.bulk o - oxideOf p o x := by
  unfold fracInst
  split
  · exact ⟨rfl, rfl⟩
  · split
    · rename_i he
      constructor <;> simp only [oxideOf, he, if_true, removeRow] <;> ring
    · rename_i he
      obtain ⟨h1, h2, -⟩ := fracComps_len fl massin x.tot p.ems x.comps f.comps a hx hf
      have hb := fracComps_bulk fl massin x.tot o p.ems x.comps f.comps a hx hf
      simp only [oxideOf, if_neg he, hb, h1, h2]
      have e1 := zipWith_add (fun c => c - massin * (c / x.tot)) o p.ems x.comps f.comps hx hf
      have e2 := zipWith_map_sum (fun c => massin * (c / x.tot)) o p.ems x.comps
      have e3 := zipWith_split (fun c => massin * (c / x.tot)) o p.ems x.comps
      constructor
      · linear_combination e1
      · linear_combination -e2 - e3

theorem fracInst_comps_len (fl : Flags) (massin : K) (p : Phase nc K) (x f : Inst K) (a : Acc nc K)
    (hx : x.comps.length = p.ems.length) (hf : f.comps.length = p.ems.length) :
    (fracInst fl massin p x f a).2.1.comps.length = p.ems.length ∧
    (fracInst fl massin p x f a).2.2.comps.length = p.ems.length := by
  unfold fracInst
  split
  · exact ⟨hx, hf⟩
  · split
    · exact ⟨hx, hf⟩
    · obtain ⟨h1, h2, -⟩ := fracComps_len fl massin x.tot p.ems x.comps f.comps a hx hf
      simp [h1, h2, hx, hf]

theorem fracInsts_spec (fl : Flags) (massin : K) (p : Phase nc K) :
    ∀ (xs fs : List (Inst K)) (a : Acc nc K), xs.length ≤ fs.length →
      (∀ x ∈ xs, x.comps.length = p.ems.length) → (∀ x ∈ fs, x.comps.length = p.ems.length) →
      (∀ o, (fracInsts fl massin p xs fs a).1.bulk o +
          ((fracInsts fl massin p xs fs a).2.2.map (oxideOf p o)).sum =
          a.bulk o + (fs.map (oxideOf p o)).sum) ∧
      (∀ o, (fracInsts fl massin p xs fs a).1.bulk o -
          ((fracInsts fl massin p xs fs a).2.1.map (oxideOf p o)).sum =
          a.bulk o - (xs.map (oxideOf p o)).sum) ∧
      List.Forall₂ (fun x y => if x.tot < massin then y = x else Reduced massin p x y) xs
        (fracInsts fl massin p xs fs a).2.1 ∧
      (∀ x ∈ (fracInsts fl massin p xs fs a).2.1, x.comps.length = p.ems.length) ∧
      (∀ x ∈ (fracInsts fl massin p xs fs a).2.2, x.comps.length = p.ems.length)
  | [], fs, a, _, _, h => by simpa [fracInsts] using h
  | x :: xs, [], a, h, _, _ => by simp at h
  | x :: xs, f :: fs, a, h, hx, hf => by
    have hx0 := hx x (by simp)
    have hf0 := hf f (by simp)
    obtain ⟨i1, i2, i3, i4, i5⟩ := fracInsts_spec fl massin p xs fs
      (fracInst fl massin p x f a).1 (by simpa using h)
      (fun y hy => hx y (by simp [hy])) (fun y hy => hf y (by simp [hy]))
    have hl := fracInst_comps_len fl massin p x f a hx0 hf0
    refine ⟨fun o => ?_, fun o => ?_, ?_, ?_, ?_⟩
    · have b := (fracInst_balance fl massin p x f a hx0 hf0 o).1
      have := i1 o
      simp only [fracInsts, List.map_cons, List.sum_cons]
      linear_combination b + this
    · have b := (fracInst_balance fl massin p x f a hx0 hf0 o).2
      have := i2 o
      simp only [fracInsts, List.map_cons, List.sum_cons]
      linear_combination b + this
    · simp only [fracInsts]
      refine List.Forall₂.cons ?_ i3
      unfold fracInst
      split
      · rfl
      · split
        · rename_i he
          exact ⟨rfl, fun hne => absurd he hne⟩
        · exact ⟨rfl, fun _ => (fracComps_len fl massin x.tot p.ems x.comps f.comps a hx0 hf0).1⟩
    · intro y hy
      simp only [fracInsts, List.mem_cons] at hy
      rcases hy with rfl | hy
      · exact hl.1
      · exact i4 y hy
    · intro y hy
      simp only [fracInsts, List.mem_cons] at hy
      rcases hy with rfl | hy
      · exact hl.2
      · exact i5 y hy

theorem growFrac_length (na ns : ℕ) (fr : List (Inst K)) :
    ns ≤ (growFrac na ns fr).length := by
  unfold growFrac; split
  · simp; omega
  · omega

theorem zipWith_replicate_zero (o : Fin nc) (rs : List (Row nc K)) (n : ℕ) :
    (List.zipWith (fun r c => c * r.solToOx o) rs (List.replicate n (0 : K))).sum = 0 := by
  induction rs generalizing n with
  | nil => simp
  | cons r rs ih =>
    cases n with
    | zero => simp
    | succ n => simp [List.replicate_succ, ih]

theorem growFrac_oxide (p : Phase nc K) (na ns : ℕ) (fr : List (Inst K)) (o : Fin nc) :
    ((growFrac na ns fr).map (oxideOf p o)).sum = (fr.map (oxideOf p o)).sum := by
  unfold growFrac; split
  · have : oxideOf p o (⟨0, List.replicate na 0⟩ : Inst K) = 0 := by
      unfold oxideOf; split
      · simp
      · exact zipWith_replicate_zero o _ _
    simp [this]
  · rfl

theorem growFrac_wf (na ns : ℕ) (fr : List (Inst K)) (h : ∀ x ∈ fr, x.comps.length = na) :
    ∀ x ∈ growFrac na ns fr, x.comps.length = na := by
  unfold growFrac; split
  · intro x hx
    simp only [List.mem_append, List.mem_replicate] at hx
    rcases hx with hx | ⟨-, rfl⟩
    · exact h x hx
    · simp
  · exact h

theorem fracPhase_spec (fl : Flags) (massin : K) (q : PhaseState nc K) (a : Acc nc K)
    (hq : WellFormed q) :
    (∀ o, (fracPhase fl massin q a).1.bulk o + oxideFrac [(fracPhase fl massin q a).2] o =
        a.bulk o + oxideFrac [q] o) ∧
    (∀ o, (fracPhase fl massin q a).1.bulk o - oxideSystem [(fracPhase fl massin q a).2] o =
        a.bulk o - oxideSystem [q] o) := by
  have hw := growFrac_wf q.ph.ems.length q.insts.length q.frac hq.2
  have hs := fracInsts_spec fl massin q.ph q.insts
    (growFrac q.ph.ems.length q.insts.length q.frac) a (growFrac_length _ _ _) hq.1 hw
  have hg := fun o => growFrac_oxide q.ph q.ph.ems.length q.insts.length q.frac o
  unfold fracPhase
  simp only
  split
  · refine ⟨fun o => ?_, fun o => ?_⟩
    · have := hs.1 o
      simp only [oxideFrac, List.map_cons, List.map_nil, List.sum_cons, List.sum_nil, add_zero]
      rw [this, hg]
    · have := hs.2.1 o
      simpa [oxideSystem] using this
  · refine ⟨fun o => ?_, fun o => ?_⟩
    · simp [oxideFrac, hg]
    · simp [oxideSystem]

theorem fracPhases_balance (fl : Flags) (massin : K) :
    ∀ (ps : List (PhaseState nc K)) (a : Acc nc K), (∀ q ∈ ps, WellFormed q) →
      (∀ o, (fracPhases fl massin ps a).1.bulk o + oxideFrac (fracPhases fl massin ps a).2 o =
        a.bulk o + oxideFrac ps o) ∧
      (∀ o, (fracPhases fl massin ps a).1.bulk o - oxideSystem (fracPhases fl massin ps a).2 o =
        a.bulk o - oxideSystem ps o)
  | [], a, _ => by simp [fracPhases]
  | q :: ps, a, h => by
    have h1 := fracPhase_spec fl massin q a (h q (by simp))
    have h2 := fracPhases_balance fl massin ps (fracPhase fl massin q a).1
      (fun x hx => h x (by simp [hx]))
    refine ⟨fun o => ?_, fun o => ?_⟩
    · have e1 := h1.1 o
      have e2 := h2.1 o
      simp only [oxideFrac, List.map_cons, List.map_nil, List.sum_cons, List.sum_nil,
        fracPhases] at *
      linear_combination e1 + e2
    · have e1 := h1.2 o
      have e2 := h2.2 o
      simp only [oxideSystem, List.map_cons, List.map_nil, List.sum_cons, List.sum_nil,
        fracPhases] at *
      linear_combination e1 + e2

/-- **C01 (balance).** Whatever the switches, phases and compositions: for every oxide the bulk
plus the fractionated reservoir is unchanged by the step, and so is the bulk minus what is in the
solids of the system (so a balanced system stays balanced). -/
theorem C01_fractionation_conserves (fl : Flags) (massin : K) (hasLiquid : Bool)
    (ps : List (PhaseState nc K)) (a : Acc nc K) (hwf : ∀ q ∈ ps, WellFormed q) (o : Fin nc) :
    let r := fractionateSolids fl massin hasLiquid ps a
    r.1.bulk o + oxideFrac r.2 o = a.bulk o + oxideFrac ps o ∧
    r.1.bulk o - oxideSystem r.2 o = a.bulk o - oxideSystem ps o := by
  simp only
  unfold fractionateSolids
  split
  · exact ⟨(fracPhases_balance fl massin ps a hwf).1 o, (fracPhases_balance fl massin ps a hwf).2 o⟩
  · exact ⟨rfl, rfl⟩

/-- The user's reading of the two switches: with both on everything is fractionated; with one on,
only the fluid phase (`water` or `fluid` by version) or only the non-fluid phases. -/
def ShouldFractionate (fl : Flags) (label : String) : Prop :=
  let isFluid := label = (if fl.haveWater then "water" else "fluid")
  (fl.fractionateSol = true ∧ ¬ isFluid) ∨ (fl.fractionateFlu = true ∧ isFluid)

theorem selected_iff (fl : Flags) (label : String)
    (h : (fl.fractionateSol || fl.fractionateFlu) = true) :
    selected fl label = true ↔ ShouldFractionate fl label := by
  obtain ⟨a, b, c, d, e, f, g⟩ := fl
  unfold selected ShouldFractionate
  cases a <;> cases b <;> cases c <;> simp at h ⊢ <;> tauto

/-- What a step must do to one phase: each copy with at least `massin` moles of a phase the user
asked to fractionate is cut down to `massin` moles in its old proportions; nothing else changes in
the system. -/
def PhaseOutcome (fl : Flags) (massin : K) (q q' : PhaseState nc K) : Prop :=
  q'.ph = q.ph ∧
  (ShouldFractionate fl q.ph.row.label →
    List.Forall₂ (fun x y => if x.tot < massin then y = x else Reduced massin q.ph x y)
      q.insts q'.insts) ∧
  (¬ ShouldFractionate fl q.ph.row.label →
    q'.insts = q.insts ∧ ∀ o, oxideFrac [q'] o = oxideFrac [q] o)

theorem fracPhases_outcome (fl : Flags) (massin : K)
    (hsel : (fl.fractionateSol || fl.fractionateFlu) = true) :
    ∀ (ps : List (PhaseState nc K)) (a : Acc nc K), (∀ q ∈ ps, WellFormed q) →
      List.Forall₂ (PhaseOutcome fl massin) ps (fracPhases fl massin ps a).2
  | [], a, _ => by simp [fracPhases]
  | q :: ps, a, h => by
    simp only [fracPhases]
    refine List.Forall₂.cons ?_ (fracPhases_outcome fl massin hsel ps _
      (fun x hx => h x (by simp [hx])))
    have hq := h q (by simp)
    have hw := growFrac_wf q.ph.ems.length q.insts.length q.frac hq.2
    have hs := fracInsts_spec fl massin q.ph q.insts
      (growFrac q.ph.ems.length q.insts.length q.frac) a (growFrac_length _ _ _) hq.1 hw
    unfold PhaseOutcome
    rw [← selected_iff fl _ hsel]
    unfold fracPhase
    simp only
    split
    · rename_i hsl
      exact ⟨rfl, fun _ => hs.2.2.1, fun hn => absurd hsl hn⟩
    · rename_i hsl
      refine ⟨rfl, fun hp => absurd hp hsl, fun _ => ⟨rfl, fun o => ?_⟩⟩
      simp [oxideFrac, growFrac_oxide]

/-- **C01 (extent).** When fractionation of solids and/or fluids is on and liquid is present, each
phase ends as `PhaseOutcome` says; otherwise the step changes nothing. -/
theorem C01_fractionation_extent (fl : Flags) (massin : K) (hasLiquid : Bool)
    (ps : List (PhaseState nc K)) (a : Acc nc K) (hwf : ∀ q ∈ ps, WellFormed q) :
    let r := fractionateSolids fl massin hasLiquid ps a
    (((fl.fractionateSol || fl.fractionateFlu) && hasLiquid) = true →
      List.Forall₂ (PhaseOutcome fl massin) ps r.2) ∧
    (((fl.fractionateSol || fl.fractionateFlu) && hasLiquid) = false → r = (a, ps)) := by
  simp only
  refine ⟨fun h => ?_, fun h => ?_⟩
  · rw [fractionateSolids, if_pos h]
    exact fracPhases_outcome fl massin (by simp_all) ps a hwf
  · rw [fractionateSolids, if_neg (by simp [h])]

/-! Mass and the H/S/V references. -/

/-- Grams in a mole vector over oxides. -/
def grams (oxmw : Fin nc → K) (b : Fin nc → K) : K := ∑ o, b o * oxmw o

/-- Rows whose molecular weight is that of their oxides. -/
def RowMw (oxmw : Fin nc → K) (r : Row nc K) : Prop := r.mw = ∑ o, r.solToOx o * oxmw o

theorem removeRow_mass (fl : Flags) (oxmw : Fin nc → K) (r : Row nc K) (hr : RowMw oxmw r) (m : K)
    (a : Acc nc K) :
    (removeRow fl r m a).fracMass + grams oxmw (removeRow fl r m a).bulk =
      a.fracMass + grams oxmw a.bulk := by
  simp only [removeRow, grams, sub_mul, Finset.sum_sub_distrib]
  have : ∑ o, r.solToOx o * m * oxmw o = m * r.mw := by
    rw [hr, Finset.mul_sum]; exact Finset.sum_congr rfl (fun _ _ => by ring)
  rw [this]; ring

theorem fracComps_mass (fl : Flags) (massin tot : K) (oxmw : Fin nc → K) :
    ∀ (rs : List (Row nc K)) (cs fs : List K) (a : Acc nc K), (∀ r ∈ rs, RowMw oxmw r) →
      (fracComps fl massin tot rs cs fs a).1.fracMass +
        grams oxmw (fracComps fl massin tot rs cs fs a).1.bulk = a.fracMass + grams oxmw a.bulk
  | [], _, _, _, _ => by simp [fracComps]
  | _ :: _, [], _, _, _ => by simp [fracComps]
  | _ :: _, _ :: _, [], _, _ => by simp [fracComps]
  | r :: rs, c :: cs, f :: fs, a, h => by
    simp only [fracComps]
    rw [fracComps_mass fl massin tot oxmw rs cs fs _ (fun x hx => h x (by simp [hx])),
      removeRow_mass fl oxmw r (h r (by simp))]

theorem fracInsts_mass (fl : Flags) (massin : K) (oxmw : Fin nc → K) (p : Phase nc K)
    (hp : RowMw oxmw p.row) (he : ∀ r ∈ p.ems, RowMw oxmw r) :
    ∀ (xs fs : List (Inst K)) (a : Acc nc K),
      (fracInsts fl massin p xs fs a).1.fracMass +
        grams oxmw (fracInsts fl massin p xs fs a).1.bulk = a.fracMass + grams oxmw a.bulk
  | [], _, _ => by simp [fracInsts]
  | _ :: _, [], _ => by simp [fracInsts]
  | x :: xs, f :: fs, a => by
    simp only [fracInsts]
    rw [fracInsts_mass fl massin oxmw p hp he xs fs]
    unfold fracInst
    split
    · rfl
    · split
      · exact removeRow_mass fl oxmw _ hp _ _
      · exact fracComps_mass fl massin x.tot oxmw _ _ _ _ he

/-- **C01 (mass).** The grams reported as fractionated grow by exactly the grams the bulk loses. -/
theorem C01_fractionated_mass (fl : Flags) (massin : K) (hasLiquid : Bool) (oxmw : Fin nc → K)
    (ps : List (PhaseState nc K)) (a : Acc nc K)
    (hmw : ∀ q ∈ ps, RowMw oxmw q.ph.row ∧ ∀ r ∈ q.ph.ems, RowMw oxmw r) :
    let r := fractionateSolids fl massin hasLiquid ps a
    r.1.fracMass - a.fracMass = grams oxmw a.bulk - grams oxmw r.1.bulk := by
  have key : ∀ (ps : List (PhaseState nc K)) (a : Acc nc K),
      (∀ q ∈ ps, RowMw oxmw q.ph.row ∧ ∀ r ∈ q.ph.ems, RowMw oxmw r) →
      (fracPhases fl massin ps a).1.fracMass + grams oxmw (fracPhases fl massin ps a).1.bulk =
        a.fracMass + grams oxmw a.bulk := by
    intro ps
    induction ps with
    | nil => intro a _; rfl
    | cons q ps ih =>
      intro a h
      simp only [fracPhases]
      rw [ih _ (fun x hx => h x (by simp [hx]))]
      unfold fracPhase
      simp only
      split
      · exact fracInsts_mass fl massin oxmw q.ph (h q (by simp)).1 (h q (by simp)).2 _ _ _
      · rfl
  simp only
  unfold fractionateSolids
  split
  · have := key ps a hmw
    linear_combination this
  · simp

/-- **C01 (constraint references).** If the constant-H, -S and -V constraints are off the reference
values are not touched, and if the system has no oxygen buffer neither is its oxygen content. -/
theorem C01_references_untouched (fl : Flags) (massin : K) (hasLiquid : Bool)
    (ps : List (PhaseState nc K)) (a : Acc nc K) :
    let r := fractionateSolids fl massin hasLiquid ps a
    (fl.isenthalpic = false → r.1.refH = a.refH) ∧ (fl.isentropic = false → r.1.refS = a.refS) ∧
    (fl.isochoric = false → r.1.refV = a.refV) ∧ (fl.buffered = false → r.1.oxygen = a.oxygen) := by
  have rc : ∀ (massin tot : K) (rs : List (Row nc K)) (cs fs : List K) (a : Acc nc K),
      let r := fracComps fl massin tot rs cs fs a
      (fl.isenthalpic = false → r.1.refH = a.refH) ∧ (fl.isentropic = false → r.1.refS = a.refS) ∧
      (fl.isochoric = false → r.1.refV = a.refV) ∧
      (fl.buffered = false → r.1.oxygen = a.oxygen) := by
    intro massin tot rs
    induction rs with
    | nil => intro cs fs a; simp [fracComps]
    | cons r rs ih =>
      intro cs fs a
      cases cs with
      | nil => simp [fracComps]
      | cons c cs =>
        cases fs with
        | nil => simp [fracComps]
        | cons f fs =>
          simp only [fracComps]
          have := ih cs fs (removeRow fl r (c - massin * (c / tot)) a)
          refine ⟨fun h => ?_, fun h => ?_, fun h => ?_, fun h => ?_⟩
          · rw [this.1 h]; simp [removeRow, guardSub, h]
          · rw [this.2.1 h]; simp [removeRow, guardSub, h]
          · rw [this.2.2.1 h]; simp [removeRow, guardSub, h]
          · rw [this.2.2.2 h]; simp [removeRow, h]
  have ri : ∀ (p : Phase nc K) (xs fs : List (Inst K)) (a : Acc nc K),
      let r := fracInsts fl massin p xs fs a
      (fl.isenthalpic = false → r.1.refH = a.refH) ∧ (fl.isentropic = false → r.1.refS = a.refS) ∧
      (fl.isochoric = false → r.1.refV = a.refV) ∧
      (fl.buffered = false → r.1.oxygen = a.oxygen) := by
    intro p xs
    induction xs with
    | nil => intro fs a; simp [fracInsts]
    | cons x xs ih =>
      intro fs a
      cases fs with
      | nil => simp [fracInsts]
      | cons f fs =>
        simp only [fracInsts]
        have h0 := ih fs (fracInst fl massin p x f a).1
        have h1 : let r := fracInst fl massin p x f a
            (fl.isenthalpic = false → r.1.refH = a.refH) ∧
            (fl.isentropic = false → r.1.refS = a.refS) ∧
            (fl.isochoric = false → r.1.refV = a.refV) ∧
            (fl.buffered = false → r.1.oxygen = a.oxygen) := by
          simp only
          unfold fracInst
          split
          · simp
          · split
            · simp +contextual [removeRow, guardSub]
            · have := rc massin x.tot p.ems x.comps f.comps a
              refine ⟨fun h => ?_, fun h => ?_, fun h => ?_, fun h => ?_⟩
              · simp only [guardSub, h]; simpa using this.1 h
              · simp only [guardSub, h]; simpa using this.2.1 h
              · simp only [guardSub, h]; simpa using this.2.2.1 h
              · simpa using this.2.2.2 h
        exact ⟨fun h => (h0.1 h).trans (h1.1 h), fun h => (h0.2.1 h).trans (h1.2.1 h),
          fun h => (h0.2.2.1 h).trans (h1.2.2.1 h), fun h => (h0.2.2.2 h).trans (h1.2.2.2 h)⟩
  have rp : ∀ (ps : List (PhaseState nc K)) (a : Acc nc K),
      let r := fracPhases fl massin ps a
      (fl.isenthalpic = false → r.1.refH = a.refH) ∧ (fl.isentropic = false → r.1.refS = a.refS) ∧
      (fl.isochoric = false → r.1.refV = a.refV) ∧
      (fl.buffered = false → r.1.oxygen = a.oxygen) := by
    intro ps
    induction ps with
    | nil => intro a; simp [fracPhases]
    | cons q ps ih =>
      intro a
      simp only [fracPhases]
      have h0 := ih (fracPhase fl massin q a).1
      have h1 : let r := fracPhase fl massin q a
          (fl.isenthalpic = false → r.1.refH = a.refH) ∧
          (fl.isentropic = false → r.1.refS = a.refS) ∧
          (fl.isochoric = false → r.1.refV = a.refV) ∧
          (fl.buffered = false → r.1.oxygen = a.oxygen) := by
        simp only
        unfold fracPhase
        simp only
        split
        · exact ri _ _ _ _
        · simp
      exact ⟨fun h => (h0.1 h).trans (h1.1 h), fun h => (h0.2.1 h).trans (h1.2.1 h),
        fun h => (h0.2.2.1 h).trans (h1.2.2.1 h), fun h => (h0.2.2.2 h).trans (h1.2.2.2 h)⟩
  simp only
  unfold fractionateSolids
  split
  · exact rp ps a
  · simp

/-! ### A concrete system: olivine-like solution (two end-members), quartz and water. -/

/-- Two oxides; a two-component solution with 3 moles (1 + 2), one pure solid with 5, water with 7. -/
def demoPhases : List (PhaseState 2 ℚ) :=
  [ { ph := ⟨⟨"olivine", fun _ => 0, 0, 0, 0, 0, 0⟩,
        [⟨"fo", ![2, 1], 0, 4, 10, 1, 1⟩, ⟨"fa", ![0, 3], 1, 6, 20, 1, 1⟩],
        fun _ => 0, fun _ => 0, fun _ => 0⟩
      insts := [⟨3, [1, 2]⟩], frac := [] },
    { ph := ⟨⟨"quartz", ![0, 1], 0, 2, 5, 1, 1⟩, [], fun _ => 0, fun _ => 0, fun _ => 0⟩
      insts := [⟨5, []⟩], frac := [] },
    { ph := ⟨⟨"water", ![1, 0], 0, 1, 5, 1, 1⟩, [], fun _ => 0, fun _ => 0, fun _ => 0⟩
      insts := [⟨7, []⟩], frac := [⟨1, []⟩] } ]

def demoAcc : Acc 2 ℚ := ⟨![50, 60], 0, 0, 0, 0, 0⟩

/-- Solids only, version with `water`. -/
def demoFlags : Flags := ⟨true, false, true, false, false, false, false⟩

example : ∀ q ∈ demoPhases, WellFormed q := by
  simp [demoPhases, WellFormed]

/-- The hypotheses are met and the step does something: 2/3 of ... of the solution and of quartz
leave the bulk, water stays. -/
example :
    let r := fractionateSolids demoFlags 1 true demoPhases demoAcc
    r.1.bulk 0 = 50 - 2 * (2/3) ∧ r.2.map (fun q => q.insts) =
      [[⟨1, [1/3, 2/3]⟩], [⟨1, []⟩], [⟨7, []⟩]] ∧
    r.2.map (fun q => q.frac) = [[⟨2, [2/3, 4/3]⟩], [⟨4, []⟩], [⟨1, []⟩]] := by
  simp [fractionateSolids, demoFlags, demoPhases, demoAcc, fracPhases, fracPhase, selected,
    growFrac, fracInsts, fracInst, fracComps, removeRow]
  norm_num

example : (∀ q ∈ demoPhases, RowMw ![1, 2] q.ph.row ∧ ∀ r ∈ q.ph.ems, RowMw ![1, 2] r) := by
  simp [demoPhases, RowMw]
  norm_num

end Magma.Engine
