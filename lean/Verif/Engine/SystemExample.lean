import Verif.Engine.SystemProps
import Verif.Thermo.Minerals.Binary

/-!
The hypotheses of C69 are met by the phases of the other properties: a general statement for the minerals of C24 with the
standard states of C60 and the conversions of C25, and a concrete assemblage of biotite and corundum.
-/

namespace Magma.Engine.System

open Finset Filter Topology Magma.Thermo.Extensive Magma.Thermo.Compo
open Magma.Thermo.Mixing (Mix Interior eps)
open Verif.Thermo.Ordering (ConsistentOn consistentOn_of on mask)
open Verif.Thermo.StdState (Std)

noncomputable section

/-- All end members get a row if all are present. -/
theorem slots_all {ph : Phase} (h : ∀ j, ph.pure = true ∨ ph.m j ≠ 0) : ph.slots = List.finRange ph.na := by
  rw [Phase.slots, List.filter_eq_self]
  intro j _
  simpa using h j

/-- **C69.** A phase whose mixing properties are consistent in the sense of C24 around its composition, whose conversion is
consistent in the sense of C25 and whose end members are consistent in the sense of C60 meets the hypotheses. -/
theorem C69_phase {ph : Phase} {T P : ℝ} {m : Fin ph.na → ℝ} (hT : T ≠ 0)
    (hs : ∀ j, Verif.Thermo.StdState.Consistent (ph.std j) T P) (hc : ph.conv.Consistent) {I : (Fin ph.nr → ℝ) → Prop}
    (hm : ph.mix.Consistent I) (h0 : ∑ i, m i ≠ 0) (hI : I (ph.conv.toR m)) : ph.OK T P m where
  tpos := hT
  std := hs
  sol _ := ⟨h0, hc, univ, fun _ _ r => I (mask univ r), (consistentOn_of hm).on univ,
    Eventually.of_forall fun _ => by change I (mask univ _); rw [mask_self (by simp)]; exact hI, by simp⟩

/-- So does a phase of fixed composition. -/
theorem C69_pure {ph : Phase} {T P : ℝ} {m : Fin ph.na → ℝ} (hT : T ≠ 0)
    (hs : ∀ j, Verif.Thermo.StdState.Consistent (ph.std j) T P) (hp : ph.pure = true) : ph.OK T P m where
  tpos := hT
  std := hs
  sol h := by simp [hp] at h

/-! ### Biotite and corundum -/

open Verif.Thermo.StdState in
/-- sol_struct_data.h 1479-1488: annite. -/
def annite : Ref := ⟨-5142800, 420, 15.408, .berman ⟨727.208, -47.75040e2, -138.319e5, 211.906e7, 0, 0, 0, 0⟩,
  .berman (-1.6969784e-6) 0 34.4473262e-6 0⟩

open Verif.Thermo.StdState in
/-- sol_struct_data.h 1489-1498: phlogopite. -/
def phlogopite : Ref := ⟨-6210391, 334.346, 14.977, .berman ⟨610.37988, -20.83781e2, -215.33008e5, 284.1040896e7, 0, 0, 0, 0⟩,
  .berman (-1.6969784e-6) 0 34.4473262e-6 0⟩

open Verif.Thermo.StdState in
/-- sol_struct_data.h 1777-1786: corundum. -/
def corundum : Ref := ⟨-1675700, 50.820, 2.558, .berman ⟨155.02, -8.284E2, -38.614E5, 40.908E7, 0, 0, 0, 0⟩,
  .berman (-0.385E-6) 0.375E-12 21.342E-6 47.180E-10⟩

open Verif.Thermo.StdState in
theorem berman_ok {r : Ref} {b : Berman} (hb : r.cp = .berman b) (h0 : b.Tt = 0) {v1 v2 v3 v4 : ℝ} (he : r.eos = .berman v1 v2 v3 v4)
    {T P : ℝ} (hT : 0 < T) : Consistent (solid r fun _ _ _ _ _ => 0) T P :=
  C60_solid r _ hT (fun b' h => by rw [hb] at h; cases h; exact Or.inl h0) fun _ _ _ h => by rw [he] at h; cases h

/-- 0.3 mol annite and 0.7 mol phlogopite in solution; oxides 0 and 1 are FeO and MgO. -/
def biotite : Phase where
  na := 2
  nr := 1
  pure := false
  liq := false
  ox := ![fun i => if i = 0 then 3 else 0, fun i => if i = 1 then 3 else 0]
  o2 := ![0, 0]
  mix := Magma.Thermo.Mixing.Biotite.mix
  conv := simpleConv Magma.Thermo.Mixing.Biotite.dep
  std := ![Verif.Thermo.StdState.solid annite fun _ _ _ _ _ => 0, Verif.Thermo.StdState.solid phlogopite fun _ _ _ _ _ => 0]
  m := ![0.3, 0.7]

/-- 0.2 mol corundum. -/
def corundumPhase : Phase where
  na := 1
  nr := 1
  pure := true
  liq := false
  ox := fun _ _ => 0
  o2 := fun _ => 0
  mix := Magma.Thermo.Mixing.Biotite.mix
  conv := ⟨fun _ _ => 0, fun _ _ _ => 0, fun _ _ _ _ => 0, fun _ _ _ _ _ => 0, fun _ _ => 0, fun _ _ => 0⟩
  std := fun _ => Verif.Thermo.StdState.solid corundum fun _ _ _ _ _ => 0
  m := fun _ => 0.2

theorem biotite_slots : biotite.slots = [(0 : Fin 2), (1 : Fin 2)] := by
  rw [slots_all (fun j => Or.inr ?_)]
  · rfl
  · change (![0.3, 0.7] : Fin 2 → ℝ) j ≠ 0
    change Fin 2 at j
    fin_cases j <;> norm_num

theorem corundum_slots : corundumPhase.slots = [(0 : Fin 1)] := by
  rw [slots_all (fun j => Or.inl rfl)]
  rfl

theorem demo_rows : rows [biotite, corundumPhase] = [0.3, 0.7, 0.2] := by
  simp only [rows, biotite_slots, corundum_slots]
  rfl

theorem biotite_interior {m : Fin 2 → ℝ} (h0 : 0.2 < m 0 ∧ m 0 < 0.4) (h1 : 0.6 < m 1 ∧ m 1 < 0.8) :
    ∑ i, m i ≠ 0 ∧ Interior Magma.Thermo.Mixing.Biotite.raw (toR Magma.Thermo.Mixing.Biotite.dep m) := by
  have hs : ∑ i, m i = m 0 + m 1 := Fin.sum_univ_two m
  have hpos : 0 < m 0 + m 1 := by linarith [h0.1, h1.1]
  have hr : toR Magma.Thermo.Mixing.Biotite.dep m 0 = m 0 / (m 0 + m 1) := by
    rw [toR, if_pos (by rw [Magma.Thermo.Compo.total, hs]; exact hpos.ne'), Magma.Thermo.Compo.total, hs]
    rfl
  have h2 : 0.1 < m 0 / (m 0 + m 1) := by rw [lt_div_iff₀ hpos]; linarith [h0.1, h1.2, h0.2]
  have h3 : m 0 / (m 0 + m 1) < 0.9 := by rw [div_lt_iff₀ hpos]; linarith [h0.1, h1.1, h0.2]
  refine ⟨by rw [hs]; exact hpos.ne', fun k => ?_⟩
  fin_cases k
  · change eps < toR _ m 0
    rw [hr]; unfold eps; linarith
  · change eps < 1 - toR _ m 0
    rw [hr]; unfold eps; linarith

theorem amounts_at {ph : Phase} {l : List (Fin ph.na)} (hl : ph.slots = l) {j : Fin ph.na} (hj : j ∈ l) (k : ℕ) (z : ℕ → ℝ) :
    ph.amounts k z j = z (k + l.idxOf j) := by
  subst hl
  rw [Phase.amounts, if_pos hj]

/-- Around the present state, at given temperature and pressure, enthalpy, entropy or volume, the tables of the assemblage
meet the hypotheses of C69. -/
theorem demo_ok (mode : Mode) : ∀ᶠ z in 𝓝 (state mode 1000 1000 [biotite, corundumPhase]),
    SysOK mode 1000 1000 (rows [biotite, corundumPhase]).length 0 [biotite, corundumPhase] z := by
  have near : ∀ (k : ℕ) (a b : ℝ), a < state mode 1000 1000 [biotite, corundumPhase] k →
      state mode 1000 1000 [biotite, corundumPhase] k < b →
      ∀ᶠ z in 𝓝 (state mode 1000 1000 [biotite, corundumPhase]), a < z k ∧ z k < b := fun k a b ha hb =>
    (continuous_apply k).continuousAt.eventually (Ioo_mem_nhds ha hb)
  have s0 : state mode 1000 1000 [biotite, corundumPhase] 0 = 0.3 := by simp [state, demo_rows]
  have s1 : state mode 1000 1000 [biotite, corundumPhase] 1 = 0.7 := by simp [state, demo_rows]
  have s3 : state mode 1000 1000 [biotite, corundumPhase] 3 = mode.var 1000 1000 := by simp [state, demo_rows]
  have hN : (rows [biotite, corundumPhase]).length = 3 := by rw [demo_rows]; rfl
  filter_upwards [near 0 0.2 0.4 (by rw [s0]; norm_num) (by rw [s0]; norm_num),
    near 1 0.6 0.8 (by rw [s1]; norm_num) (by rw [s1]; norm_num),
    near 3 (-1 + mode.var 1000 1000) (1 + mode.var 1000 1000) (by rw [s3]; linarith) (by rw [s3]; linarith)] with z h0 h1 h3
  rw [hN]
  have hT : 0 < (mode.at 1000 1000 (z 3)).1 := by
    cases mode
    · change (0 : ℝ) < 1000; norm_num
    · have : (-1 : ℝ) + 1000 < z 3 := h3.1
      change 0 < z 3; linarith
    · have : (-1 : ℝ) + 1000 < z 3 := h3.1
      change 0 < z 3; linarith
    · change (0 : ℝ) < 1000; norm_num
  have a0 : biotite.amounts 0 z (0 : Fin 2) = z 0 := amounts_at biotite_slots List.mem_cons_self 0 z
  have a1 : biotite.amounts 0 z (1 : Fin 2) = z 1 :=
    amounts_at biotite_slots (List.mem_cons_of_mem _ List.mem_cons_self) 0 z
  obtain ⟨hb, hi⟩ := biotite_interior (m := biotite.amounts 0 z) (by rw [a0]; exact h0) (by rw [a1]; exact h1)
  refine ⟨C69_phase hT.ne' (fun j => ?_) (C25_simple _) Magma.Thermo.Mixing.C24_biotite hb hi, C69_pure hT.ne' (fun j => ?_) rfl, trivial⟩
  · change Fin 2 at j
    fin_cases j
    · exact berman_ok (r := annite) rfl rfl rfl hT
    · exact berman_ok (r := phlogopite) rfl rfl rfl hT
  · exact berman_ok (r := corundum) rfl rfl rfl hT

/-- The Hessian of the Lagrangian the code assembles for this assemblage at given enthalpy is the derivative of its gradient. -/
example (lambda : ℝ) (i j : ℕ) :
    HasDerivAt (fun h => slope (fun y => Psi .isenthalpic 1000 1000 3 [biotite, corundumPhase] y
        - lambda * Con .isenthalpic 1000 1000 3 [biotite, corundumPhase] y) i
        (shift (state .isenthalpic 1000 1000 [biotite, corundumPhase]) j h))
      (corrected .isenthalpic lambda (assemble .isenthalpic (hasNlCon .isenthalpic false) 1000 1000 3 0 [biotite, corundumPhase] Mats.zero) i j) 0 := by
  have hN : (rows [biotite, corundumPhase]).length = 3 := by rw [demo_rows]; rfl
  have := C69_lagrangian .isenthalpic 1000 1000 [biotite, corundumPhase] lambda (by decide) (demo_ok .isenthalpic) i j
  rw [hN] at this
  exact this

/-- The rows of FeO and MgO of its constraint matrix are independent. -/
example : [0, 1].length < (rows [biotite, corundumPhase]).length ∧
    ∀ a : ℕ → ℝ, (∀ j < (rows [biotite, corundumPhase]).length,
      ∑ i ∈ range [0, 1].length, a i * conMatrix .gibbs 1000 1000 [0, 1] [biotite, corundumPhase] i j = 0) →
      ∀ i < [0, 1].length, a i = 0 := by
  have hN : (rows [biotite, corundumPhase]).length = 3 := by rw [demo_rows]; rfl
  have o0 : oxRow 0 [biotite, corundumPhase] = [3, 0, 0] := by
    simp only [oxRow, biotite_slots, corundum_slots]
    simp [biotite, corundumPhase]
  have o1 : oxRow 1 [biotite, corundumPhase] = [0, 3, 0] := by
    simp only [oxRow, biotite_slots, corundum_slots]
    simp [biotite, corundumPhase]
  refine ⟨by rw [hN]; decide, fun a h i hi => ?_⟩
  rw [hN] at h
  have h0 := h 0 (by norm_num)
  have h1 := h 1 (by norm_num)
  simp [sum_range_succ, conMatrix, o0, o1] at h0 h1
  change i < 2 at hi
  interval_cases i
  · exact h0
  · exact h1

end

end Magma.Engine.System
