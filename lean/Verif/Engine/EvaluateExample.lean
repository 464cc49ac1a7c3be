import Verif.Engine.EvaluateProps

/-!
A state that meets the hypotheses of C73: quartz, forsterite and enstatite present, coesite absent, two liquid components
SiO2 and Mg2SiO4; and a liquid on an oxygen buffer.
-/

namespace Magma.Engine.Evaluate

open Finset

noncomputable section

/-- A pure phase for the examples, with an estimator that is never called. -/
def pureOf (g : ℝ) (nu : ℕ → ℝ) (n : ℕ) : Phase :=
  { ends := [⟨g, nu⟩], cyl := 0, nCoexist := n, amount := n, comp := 0, mix := 0, retry := false, est := fun _ _ => none }

/-- Contents of the two liquid components. -/
def two (a b : ℝ) (k : ℕ) : ℝ := if k = 0 then a else if k = 1 then b else 0

/-- Quartz, forsterite and enstatite in equilibrium; coesite more stable than quartz by 5 J. -/
def solids3 : State where
  nlc := 2
  nc := 2
  liqG := two (-800) (-1900)
  liqToOx := fun k n => if k = 0 then (if n = 0 then 1 else 0) else (if n = 0 then 1 else 2)
  liquidMass := 0
  liquidComp := 0
  bulk := fun _ => 1
  liqMix := 0
  T := 1000
  buffered := false
  fo2 := 0
  oxygenG := 0
  pMelts := false
  phases := [pureOf (-900) (two 1 0) 1, pureOf (-2000) (two 0 1) 1, pureOf (-1450) (two (1 / 2) (1 / 2)) 1,
    pureOf (-905) (two 1 0) 0]
  inc := fun _ => true
  incLiq := true
  estLiq := fun _ m => some (min (m 0) (m 1), fun _ => 0)

/-- Its singular value decomposition. -/
def svd3 : Svd where
  U := fun j q => if q = 0 then 1 / Real.sqrt 3 else two (1 / Real.sqrt 2) (-(1 / Real.sqrt 2)) j
  S := fun q => if q = 0 then Real.sqrt 3 / Real.sqrt 2 else 1
  V := fun k q => if q = 0 then 1 / Real.sqrt 2 else two (1 / Real.sqrt 2) (-(1 / Real.sqrt 2)) k

theorem rows3 : rows solids3 = [(-900, two 1 0), (-2000, two 0 1), (-1450, two (1 / 2) (1 / 2))] := by
  simp [rows, solids3, rowsOf, pureOf]

theorem avail3 (k : ℕ) : Avail solids3 k := by
  intro n _ h
  simp [solids3] at h

theorem cols3 : cols solids3 = [0, 1] := by
  classical
  unfold cols
  rw [List.filter_eq_self.2 (fun k _ => by simp [avail3 k])]
  rfl

theorem closed3 : Closed solids3 := fun _ _ k _ h => absurd (avail3 k) h

theorem equilibrium3 : Equilibrium solids3 := by
  intro c h
  rw [rows3] at h ⊢
  have h0 := h 0 (by simp [solids3])
  have h1 := h 1 (by simp [solids3])
  simp [sum_range_succ, two] at h0 h1 ⊢
  linarith

theorem solved3 : Solved solids3 svd3 := by
  have s2 : Real.sqrt 2 * Real.sqrt 2 = 2 := Real.mul_self_sqrt (by norm_num)
  have s3 : Real.sqrt 3 * Real.sqrt 3 = 3 := Real.mul_self_sqrt (by norm_num)
  have p2 : 0 < Real.sqrt 2 := Real.sqrt_pos.2 (by norm_num)
  have p3 : 0 < Real.sqrt 3 := Real.sqrt_pos.2 (by norm_num)
  have h2 : Real.sqrt 2 ^ 2 = 2 := by rw [sq, s2]
  have h3 : Real.sqrt 3 ^ 2 = 3 := by rw [sq, s3]
  have lr : (rows solids3).length = 3 := by rw [rows3]; rfl
  have lc : (cols solids3).length = 2 := by rw [cols3]; rfl
  refine ⟨?_, by rw [lr, lc]; norm_num, ?_⟩
  · rw [lr, lc]
    refine ⟨?_, ?_, ?_, ?_⟩
    · intro j hj k hk
      unfold mat
      rw [rows3, cols3]
      have : j = 0 ∨ j = 1 ∨ j = 2 := by omega
      have : k = 0 ∨ k = 1 := by omega
      rcases ‹j = 0 ∨ j = 1 ∨ j = 2› with rfl | rfl | rfl <;> rcases ‹k = 0 ∨ k = 1› with rfl | rfl <;>
        simp [sum_range_succ, svd3, two] <;> field_simp <;> rw [h2] <;> norm_num
    · intro q hq q' hq'
      have : q = 0 ∨ q = 1 := by omega
      have : q' = 0 ∨ q' = 1 := by omega
      rcases ‹q = 0 ∨ q = 1› with rfl | rfl <;> rcases ‹q' = 0 ∨ q' = 1› with rfl | rfl <;>
        simp [sum_range_succ, svd3, two] <;> field_simp <;> (try rw [h2]) <;> (try rw [h3]) <;> norm_num
    · intro q hq q' hq'
      have : q = 0 ∨ q = 1 := by omega
      have : q' = 0 ∨ q' = 1 := by omega
      rcases ‹q = 0 ∨ q = 1› with rfl | rfl <;> rcases ‹q' = 0 ∨ q' = 1› with rfl | rfl <;>
        simp [sum_range_succ, svd3, two] <;> field_simp <;> (try rw [h2]) <;> norm_num
    · intro q _
      simp only [svd3]
      split
      · positivity
      · norm_num
  · intro q _
    right
    simp only [svd3]
    split
    · rw [le_div_iff₀ p2]
      have : Real.sqrt 2 ≤ Real.sqrt 3 := Real.sqrt_le_sqrt (by norm_num)
      nlinarith
    · norm_num

/-- Coesite is made of one quartz. -/
theorem makes3 : Makes solids3 (fun j => if j = 0 then 1 else 0) (two 1 0) := by
  intro k _
  rw [rows3]
  simp [sum_range_succ]

/-- The affinity found for coesite is -5 J, the energy of quartz to coesite, whatever reaction is written; the state is
reported as supersaturated and coesite is chosen. -/
example (junk : ℕ → ℝ) : affinity (cand solids3 (muLiq solids3 svd3 junk) (pureOf (-905) (two 1 0) 0)) = -5 := by
  rw [C73_reaction solids3 svd3 junk rfl solved3 equilibrium3 closed3 _ ⟨-905, two 1 0⟩ rfl _ makes3]
  unfold reactionEnergy
  rw [rows3]
  simp [sum_range_succ]
  norm_num

example (junk : ℕ → ℝ) : flag solids3 svd3 junk = true := by
  rw [C73_flag]
  left
  refine ⟨3, pureOf (-905) (two 1 0) 0, rfl, rfl, by simp [pureOf], by simp [pureOf], ?_⟩
  rw [C73_reaction solids3 svd3 junk rfl solved3 equilibrium3 closed3 _ ⟨-905, two 1 0⟩ rfl _ makes3]
  unfold reactionEnergy
  rw [rows3]
  simp [sum_range_succ]
  norm_num

/-- The hypotheses of `C73_present_phases`: the potentials -900 and -2000 suit all solids present. -/
example (junk : ℕ → ℝ) : ∀ ph ∈ solids3.phases, ∀ k, Holds ph k →
    ∑ l ∈ range solids3.nlc, (ph.ends.getD k ⟨0, 0⟩).toLiq l * muLiq solids3 svd3 junk l = potential ph k := by
  refine C73_present_phases solids3 svd3 junk rfl solved3 (two (-900) (-2000)) ?_ ?_
  · intro ph hp k hk
    obtain ⟨h1, h2, -⟩ := hk
    simp only [solids3, List.mem_cons, List.not_mem_nil, or_false] at hp
    rcases hp with rfl | rfl | rfl | rfl
    all_goals
      obtain rfl : k = 0 := by simpa [pureOf] using h2
      simp [pureOf, potential, solids3, sum_range_succ, two] at h1 ⊢
    norm_num
  · intro ph _ k _ l _ _ n _ _
    simp [solids3]

/-- The entries of the liquid components are the energies of melting, 100 J each. -/
example (junk : ℕ → ℝ) : liqMinus solids3 (muLiq solids3 svd3 junk) 0 = 100 := by
  have := dot_makes solids3 svd3 junk rfl solved3 equilibrium3 closed3 makes3
  rw [rows3] at this
  simp [solids3, sum_range_succ, two] at this
  unfold liqMinus
  rw [if_pos (by unfold present; rw [if_neg (by simp [solids3]), if_pos (avail3 0)]; exact one_ne_zero)]
  have h2 : muLiq solids3 svd3 junk 0 = -900 := this
  rw [h2]
  simp [solids3, two]
  norm_num

/-- A liquid on a buffer, and hematite (one mole of Fe2O3). -/
def buffered6 : State :=
  { solids3 with nlc := 6, liquidMass := 100, liquidComp := fun _ => 1, buffered := true, fo2 := -8 }

example (junk : ℕ → ℝ) :
    affinity (cand { buffered6 with fo2 := buffered6.fo2 + 1 } (muLiq { buffered6 with fo2 := buffered6.fo2 + 1 } svd3 junk)
      (pureOf (-700) (fun k => if k = 3 then 1 else 0) 0)) <
    affinity (cand buffered6 (muLiq buffered6 svd3 junk) (pureOf (-700) (fun k => if k = 3 then 1 else 0) 0)) := by
  rw [C73_buffer_affinity buffered6 svd3 junk (by simp [buffered6]) rfl 1 _ ⟨-700, fun k => if k = 3 then 1 else 0⟩ rfl
    (by rintro ⟨l, _, _, h⟩; simp [buffered6, present] at h) (by simp [buffered6])]
  have : 0 < Real.log 10 := Real.log_pos (by norm_num)
  simp [buffered6, solids3, Thermo.MuO2.R]
  positivity

end

end Magma.Engine.Evaluate
