import Verif.Engine.BufferStep
import Verif.Engine.SystemExample

/-!
The hypotheses of C70 are met by the oxygen potential of the liquid (C59), the buffers (C21) and the standard state of oxygen
(C60), and by a concrete assemblage.
-/

namespace Magma.Engine.System

open Finset Filter Topology Magma.Thermo Magma.Thermo.Extensive Magma.Thermo.Buffers Magma.Thermo.Compo
open Magma.Thermo.Mixing (Mix Interior eps)
open Verif.Thermo.StdState (Std oxygen)

noncomputable section

/-- `muO2Liq` (liquid.c 9718-9935, modelled in `Thermo/MuO2`) as called by gradient_hessian.c 590-594. -/
def Oxy.melts {nc nlc : ℕ} (capped : Bool) (fe2 fe3 : Fin nc) (coeff : Fin nc → ℝ) (L : Fin nlc → Fin nc → ℝ) : Oxy nlc where
  mu T P m := MuO2.mu capped fe2 fe3 coeff L T P m
  dm T _ m i := MuO2.dm fe2 fe3 coeff L T m i
  dt T P m := MuO2.dt capped fe2 fe3 coeff L T P m
  dp T P m := MuO2.dp capped fe2 fe3 L T P m
  dmm T _ m i j := MuO2.d2m fe2 fe3 coeff L T m i j
  dmt _ _ m i := MuO2.d2mt fe2 fe3 coeff L m i
  dmp _ _ _ _ := MuO2.d2mp
  dtt T P m := MuO2.d2t2 capped fe2 fe3 L T P m
  dpp T P m := MuO2.d2p2 capped fe2 fe3 L T P m

section facts
variable {nc nlc : ℕ} (capped : Bool) (fe2 fe3 : Fin nc) (hne : fe2 ≠ fe3) (coeff : Fin nc → ℝ) (L : Fin nlc → Fin nc → ℝ)

open Magma.Thermo.Redox Magma.Thermo.MuO2 in
theorem dt_m (t p : ℝ) (ht : t ≠ 0) (m : Fin nlc → ℝ) (hne : fe2 ≠ fe3) (hp : ¬ Absent fe2 fe3 (oxides L m)) (j : Fin nlc) :
    Partial (fun m => MuO2.dt capped fe2 fe3 coeff L t p m) m j (MuO2.d2mt fe2 fe3 coeff L m j) := by
  have h := (C59_composition_derivatives capped fe2 fe3 hne coeff L t p m hp j j).1
  unfold Partial at h ⊢
  have e : MuO2.d2mt fe2 fe3 coeff L m j = MuO2.dm fe2 fe3 coeff L t m j / t := by
    simp only [MuO2.d2mt, MuO2.dm, guarded_of _ _ _ hp]
    rw [sum_div]
    refine sum_congr rfl fun i _ => ?_
    field_simp
  rw [e]
  obtain ⟨Q, hQ⟩ : ∃ Q : ℝ, ∀ m, ¬ Absent fe2 fe3 (oxides L m) → MuO2.dt capped fe2 fe3 coeff L t p m
      = MuO2.mu capped fe2 fe3 coeff L t p m / t + Q := by
    refine ⟨R * t * (cB / t ^ 2 - cE * (cT0 / t - 1) * (1 / t)) / cA + if capped = false ∨ p < 50000 then
        R * t * (cF * p / t ^ 2 - cG * (cT0 / t) * (p / t) + cH * (p / t) ^ 2) / cA
      else
        R * t * (cF * 50000 / t ^ 2 - cG * (cT0 / t) * (50000 / t) + cH * (50000 / t) ^ 2 -
          cA * Real.log 10 * (608.966 * p / 10000 - 608.966 * 5) / t ^ 2) / cA, fun m hm => ?_⟩
    simp only [MuO2.dt, MuO2.mu, guarded_of _ _ _ hm]
    have : ∀ z : ℝ, R * t * z / cA / t = R * z / cA := by intro z; field_simp
    rw [this]
    ring
  refine ((h.div_const t).add_const Q).congr_of_eventuallyEq ?_
  have hp' := hp
  unfold Absent at hp'
  push Not at hp'
  filter_upwards [line_ne _ (MuO2.total fe3 (L j)) hp'.1, line_ne _ (L j fe2) hp'.2.1, line_ne _ (L j fe3) hp'.2.2] with x h1 h2 h3
  refine hQ _ ?_
  unfold Absent
  rw [MuO2.total_bump, oxides_bump, oxides_bump]
  tauto

open Magma.Thermo.MuO2 in
theorem dp_m (t p : ℝ) (m : Fin nlc → ℝ) (hp : ¬ Absent fe2 fe3 (oxides L m)) (j : Fin nlc) :
    Partial (fun m => MuO2.dp capped fe2 fe3 L t p m) m j MuO2.d2mp := by
  unfold Partial
  refine (hasDerivAt_const (0 : ℝ) (MuO2.dp capped fe2 fe3 L t p m)).congr_of_eventuallyEq ?_
  filter_upwards [guarded_near fe2 fe3 L m j hp] with x hx
  simp only [MuO2.dp, hx, guarded_of _ _ _ hp]

theorem oxygen_s {t : ℝ} (p : ℝ) (ht : 0 < t) : HasDerivAt (fun t' => (oxygen t' p).s) ((oxygen t p).cp / t) t := by
  obtain ⟨h1, h2, h3, -, -⟩ := Verif.Thermo.StdState.C60_oxygen p ht
  have : HasDerivAt (fun t' => ((oxygen t' p).h - (oxygen t' p).g) / t') ((oxygen t p).cp / t) t := by
    refine ((h3.sub h2).div (hasDerivAt_id t) ht.ne').congr_deriv ?_
    simp only [id, Pi.sub_apply, h1]
    field_simp
    ring
  refine this.congr_of_eventuallyEq ?_
  filter_upwards [lt_mem_nhds ht] with x hx
  rw [(Verif.Thermo.StdState.C60_oxygen p hx).1]
  field_simp
  ring

/-- **C70.** The potential of oxygen in a liquid with both iron oxides, with the standard state of oxygen added, meets the
hypotheses. -/
theorem C70_liquid {l : Phase} (coeff : Fin nc → ℝ) (L : Fin l.na → Fin nc → ℝ) (T P : ℝ) (m : Fin l.na → ℝ) (hne : fe2 ≠ fe3)
    (hT : 0 < T) (hc : capped = true → P ≠ 50000) (hp : ¬ MuO2.Absent fe2 fe3 (MuO2.oxides L m)) :
    ((Oxy.melts capped fe2 fe3 coeff L).std oxygen).Ok T P m := by
  have ho := Verif.Thermo.StdState.C60_oxygen P hT
  have hc1 := fun i j => MuO2.C59_composition_derivatives capped fe2 fe3 hne coeff L T P m hp i j
  have ht1 := MuO2.C59_temperature_derivatives capped fe2 fe3 coeff L T P m hT.ne'
  have hp1 := MuO2.C59_pressure_derivatives capped fe2 fe3 coeff L T P m hT.ne' hc
  exact
    { mu_m := fun j _ => HasDerivAt.add_const _ (hc1 j j).1
      dm_m := fun j _ k _ => (hc1 j k).2
      mu_t := (ht1.1.add ho.2.1).congr_deriv (by simp only [Oxy.std, Oxy.melts]; ring)
      mu_p := HasDerivAt.add_const _ hp1.1
      dm_t := fun j _ => ht1.2.2 j
      dm_p := fun j _ => hp1.2.2.2.2 j
      dt_m := fun j _ => HasDerivAt.sub_const _ (dt_m capped fe2 fe3 coeff L T P hT.ne' m hne hp j)
      dp_m := fun j _ => dp_m capped fe2 fe3 L T P m hp j
      dt_t := (ht1.2.1.sub (oxygen_s P hT)).congr_deriv (by simp only [Oxy.std, Oxy.melts]; ring)
      dp_p := hp1.2.1 }

/-- **C70.** So does every buffer. -/
theorem C70_buffer (delta T P : ℝ) (b : Buffer) (hT : 0 < T) (hb : b ≠ .none) (hc : b = .coh → P < 67201) :
    (Ext.of oxygen delta b).Ok T P := by
  have ho := Verif.Thermo.StdState.C60_oxygen P hT
  have ht := C21_temperature_derivatives b delta T P hT.ne'
  have hp := C21_pressure_derivatives b delta T P hb hc
  have id1 : HasDerivAt (fun t => MuO2.R * t * Real.log 10) (MuO2.R * Real.log 10) T := by
    have := ((hasDerivAt_id T).const_mul MuO2.R).mul_const (Real.log 10)
    simpa using this
  exact
    { e_t := (ho.2.1.add (id1.mul ht.1)).congr_deriv (by simp only [Ext.of]; ring)
      et_t := by
        have h := ((oxygen_s P hT).neg.add (ht.1.const_mul (MuO2.R * Real.log 10))).add (id1.mul ht.2)
        refine h.congr_deriv ?_
        simp only [Ext.of]
        ring
      e_p := by
        have h := (hp.1.const_mul (MuO2.R * T * Real.log 10)).const_add (oxygen T P).g
        exact h
      ep_p := hp.2.const_mul (MuO2.R * T * Real.log 10)
      T0 := hT.ne' }

end facts

/-! ### A liquid of two components with corundum -/

/-- A liquid of an FeO and an Fe2O3 component (oxides 0 and 1), 0.3 and 0.7 mol, with the mixing properties and standard states of
`biotite`. -/
def demoLiquid : Phase :=
  { biotite with
    liq := true
    ox := ![fun i => if i = 0 then 2 else 0, fun i => if i = 1 then 1 else 0]
    o2 := ![0, 1 / 2] }

/-- Its oxygen potential. -/
def demoOxy (ph : Phase) : Oxy ph.na :=
  if h : ph.na = 2 then
    Oxy.melts (nc := 2) true 0 1 ![0, 0] fun j i => (![![2, 0], ![0, 1]] : Fin 2 → Fin 2 → ℝ) (Fin.cast h j) i
  else ⟨fun _ _ _ => 0, fun _ _ _ _ => 0, fun _ _ _ => 0, fun _ _ _ => 0, fun _ _ _ _ _ => 0, fun _ _ _ _ => 0,
    fun _ _ _ _ => 0, fun _ _ _ => 0, fun _ _ _ => 0⟩

theorem demo_slots : demoLiquid.slots = [(0 : Fin 2), (1 : Fin 2)] := by
  rw [slots_all (fun j => Or.inr ?_)]
  · rfl
  · change (![0.3, 0.7] : Fin 2 → ℝ) j ≠ 0
    change Fin 2 at j
    fin_cases j <;> norm_num

theorem demoL_rows : rows [demoLiquid, corundumPhase] = [0.3, 0.7, 0.2] := by
  simp only [rows, demo_slots, corundum_slots]
  rfl

/-- Around the present state, at given temperature and pressure, enthalpy, entropy or volume, on the QFM buffer, the hypotheses
of C70 are met. -/
theorem demoL_ok (mode : Mode) : ∀ᶠ z in 𝓝 (state mode 1000 1000 [demoLiquid, corundumPhase]),
    BufOK mode 1000 1000 (rows [demoLiquid, corundumPhase]).length (Ext.of oxygen 0 .qfm) ((demoOxy demoLiquid).std oxygen)
      [demoLiquid, corundumPhase] z := by
  have near : ∀ (k : ℕ) (a b : ℝ), a < state mode 1000 1000 [demoLiquid, corundumPhase] k →
      state mode 1000 1000 [demoLiquid, corundumPhase] k < b →
      ∀ᶠ z in 𝓝 (state mode 1000 1000 [demoLiquid, corundumPhase]), a < z k ∧ z k < b := fun k a b ha hb =>
    (continuous_apply k).continuousAt.eventually (Ioo_mem_nhds ha hb)
  have s0 : state mode 1000 1000 [demoLiquid, corundumPhase] 0 = 0.3 := by simp [state, demoL_rows]
  have s1 : state mode 1000 1000 [demoLiquid, corundumPhase] 1 = 0.7 := by simp [state, demoL_rows]
  have s3 : state mode 1000 1000 [demoLiquid, corundumPhase] 3 = mode.var 1000 1000 := by simp [state, demoL_rows]
  have hN : (rows [demoLiquid, corundumPhase]).length = 3 := by rw [demoL_rows]; rfl
  filter_upwards [near 0 0.2 0.4 (by rw [s0]; norm_num) (by rw [s0]; norm_num),
    near 1 0.6 0.8 (by rw [s1]; norm_num) (by rw [s1]; norm_num),
    near 3 (-1 + mode.var 1000 1000) (1 + mode.var 1000 1000) (by rw [s3]; linarith) (by rw [s3]; linarith)] with z h0 h1 h3
  rw [hN]
  have hT : 0 < (mode.at 1000 1000 (z 3)).1 := by
    cases mode
    · change (0 : ℝ) < 1000; norm_num
    · have : (-1 : ℝ) + 1000 < z 3 := h3.1
      change 0 < z 3; linarith
    · have : (-1 : ℝ) + 1000 < z 3 := h3.1
      change 0 < z 3; linarith
    · change (0 : ℝ) < 1000; norm_num
  have hP : (mode.at 1000 1000 (z 3)).2 < 2000 := by
    cases mode
    · change (1000 : ℝ) < 2000; norm_num
    · change (1000 : ℝ) < 2000; norm_num
    · change (1000 : ℝ) < 2000; norm_num
    · have : z 3 < (1 : ℝ) + 1000 := h3.2
      change z 3 < 2000; linarith
  have a0 : demoLiquid.amounts 0 z (0 : Fin 2) = z 0 := amounts_at demo_slots List.mem_cons_self 0 z
  have a1 : demoLiquid.amounts 0 z (1 : Fin 2) = z 1 :=
    amounts_at demo_slots (List.mem_cons_of_mem _ List.mem_cons_self) 0 z
  obtain ⟨hb, hi⟩ := biotite_interior (m := demoLiquid.amounts 0 z) (by rw [a0]; exact h0) (by rw [a1]; exact h1)
  refine ⟨⟨C69_phase hT.ne' (fun j => ?_) (C25_simple _) Magma.Thermo.Mixing.C24_biotite hb hi,
    C69_pure hT.ne' (fun j => ?_) rfl, trivial⟩, ?_, ?_⟩
  · change Fin 2 at j
    fin_cases j
    · exact berman_ok (r := annite) rfl rfl rfl hT
    · exact berman_ok (r := phlogopite) rfl rfl rfl hT
  · exact berman_ok (r := corundum) rfl rfl rfl hT
  · have hd : demoOxy demoLiquid = Oxy.melts (nc := 2) true 0 1 ![0, 0] (![![2, 0], ![0, 1]] : Fin 2 → Fin 2 → ℝ) := dif_pos rfl
    rw [hd]
    refine C70_liquid true 0 1 _ _ _ _ _ (by decide) hT (fun _ => by linarith) ?_
    have e0 : MuO2.oxides (nlc := 2) (nc := 2) ![![2, 0], ![0, 1]] (demoLiquid.amounts 0 z) 0 = 2 * z 0 := by
      unfold MuO2.oxides; rw [Fin.sum_univ_two, a0, a1]; simp
    have e1 : MuO2.oxides (nlc := 2) (nc := 2) ![![2, 0], ![0, 1]] (demoLiquid.amounts 0 z) 1 = z 1 := by
      unfold MuO2.oxides; rw [Fin.sum_univ_two, a0, a1]; simp
    change ¬ MuO2.Absent (nc := 2) 0 1 (MuO2.oxides (nlc := 2) (nc := 2) ![![2, 0], ![0, 1]] (demoLiquid.amounts 0 z))
    unfold MuO2.Absent MuO2.total
    rw [Fin.sum_univ_two, e0, e1]
    rintro (h | h | h)
    · linarith [h0.1, h1.1]
    · linarith [h0.1]
    · linarith [h1.1]
  · exact C70_buffer 0 _ _ .qfm hT (by intro h; cases h) (by intro h; cases h)

/-- The matrix assembled for it at given volume is the Hessian. -/
example (i j : ℕ) :
    HasDerivAt (fun h => slope (Phi .isochoric 1000 1000 (rows [demoLiquid, corundumPhase]).length (Ext.of oxygen 0 .qfm)
        ((demoOxy demoLiquid).std oxygen) [demoLiquid, corundumPhase]) i
        (shift (state .isochoric 1000 1000 [demoLiquid, corundumPhase]) j h))
      ((bufferedAssemble .isochoric 1000 1000 (rows [demoLiquid, corundumPhase]).length (Ext.of oxygen 0 .qfm)
        (fun ph => (demoOxy ph).std oxygen) demoLiquid [] [corundumPhase]).e i j) 0 :=
  C70_hessian_gibbs .isochoric 1000 1000 _ (fun ph => (demoOxy ph).std oxygen) demoLiquid [corundumPhase] (Or.inr rfl)
    (demoL_ok .isochoric) i j

/-- Its two iron oxides give one row. -/
example : ∃ R, ironRows 1 0 [demoLiquid, corundumPhase] [0, 1] ([], none) = some R ∧ R.length = 1 := by
  obtain ⟨R, h, hl, -⟩ := C70_iron_rows 1 0 [demoLiquid, corundumPhase] [0, 1] (by simp) (by simp) (by simp) (by decide) _ le_rfl
  exact ⟨R, h, by simpa using hl⟩

end

end Magma.Engine.System
