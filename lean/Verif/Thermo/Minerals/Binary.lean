import Verif.Thermo.Mixing
import Mathlib.Tactic.FinCases

/-!
Two-component phases. Generated by /verif/tools/gen/genmix.py from the macros of /repo/sources: one definition per macro, with the
macros it mentions as definitions (the generator checks that this has the value of C's textual substitution). The
theorem `C24_*` of each phase says that the outputs of its mixing functions fit together (`Mix.Consistent`) wherever
the site fractions are above `DBL_EPSILON`. Simplification: `double` is the real numbers.
-/

set_option linter.unusedVariables false
set_option linter.unusedTactic false
set_option linter.unreachableTactic false
set_option linter.unusedSimpArgs false

namespace Magma.Thermo.Mixing

open Magma.Thermo.Extensive Magma.Thermo.Compo

noncomputable section

namespace Biotite

/-- `WHANPH`, biotite.c 98. -/
def WHANPH : ℝ := (523 / 125) * 1000 * (321 / 100)

/-- `S`, biotite.c 114. -/
def S (t p r0 xan xph : ℝ) : ℝ :=
  (-R) * (xan * Real.log xan + xph * Real.log xph)

/-- `H`, biotite.c 115. -/
def H (t p r0 xan xph : ℝ) : ℝ :=
  WHANPH * xan * xph

/-- `V`, biotite.c 116. -/
def V (t p r0 xan xph : ℝ) : ℝ :=
  0

/-- `G`, biotite.c 117. -/
def G (t p r0 xan xph : ℝ) : ℝ :=
  (H t p r0 xan xph) - t * (S t p r0 xan xph) + (p - 1) * (V t p r0 xan xph)

/-- `DGDR0`, biotite.c 119. -/
def DGDR0 (t p r0 xan xph : ℝ) : ℝ :=
  R * t * (Real.log xan - Real.log xph) + WHANPH * (xph - xan)

/-- `DGDP`, biotite.c 121. -/
def DGDP (t p r0 xan xph : ℝ) : ℝ :=
  (V t p r0 xan xph)

/-- `D2GDR0R0`, biotite.c 123. -/
def D2GDR0R0 (t p r0 xan xph : ℝ) : ℝ :=
  R * t * (1 / xan + 1 / xph) - 2 * WHANPH

/-- `D2GDR0DT`, biotite.c 124. -/
def D2GDR0DT (t p r0 xan xph : ℝ) : ℝ :=
  R * (Real.log xan - Real.log xph)

/-- `D2GDR0DP`, biotite.c 125. -/
def D2GDR0DP (t p r0 xan xph : ℝ) : ℝ :=
  0

/-- `D2GDT2`, biotite.c 126. -/
def D2GDT2 (t p r0 xan xph : ℝ) : ℝ :=
  0

/-- `D2GDTDP`, biotite.c 127. -/
def D2GDTDP (t p r0 xan xph : ℝ) : ℝ :=
  0

/-- `D2GDP2`, biotite.c 128. -/
def D2GDP2 (t p r0 xan xph : ℝ) : ℝ :=
  0

/-- `D3GDR0R0R0`, biotite.c 130. -/
def D3GDR0R0R0 (t p r0 xan xph : ℝ) : ℝ :=
  R * t * (1 / xph ^ 2 - 1 / xan ^ 2)

/-- `D3GDR0R0DT`, biotite.c 131. -/
def D3GDR0R0DT (t p r0 xan xph : ℝ) : ℝ :=
  R * (1 / xan + 1 / xph)

/-- `D3GDR0R0DP`, biotite.c 132. -/
def D3GDR0R0DP (t p r0 xan xph : ℝ) : ℝ :=
  0

/-- `D3GDT3`, biotite.c 133. -/
def D3GDT3 (t p r0 xan xph : ℝ) : ℝ :=
  0

/-- `D3GDT2DP`, biotite.c 134. -/
def D3GDT2DP (t p r0 xan xph : ℝ) : ℝ :=
  0

/-- `D3GDTDP2`, biotite.c 135. -/
def D3GDTDP2 (t p r0 xan xph : ℝ) : ℝ :=
  0

/-- `D3GDP3`, biotite.c 136. -/
def D3GDP3 (t p r0 xan xph : ℝ) : ℝ :=
  0

/-- `D3GDR0DT2`, biotite.c 138. -/
def D3GDR0DT2 (t p r0 xan xph : ℝ) : ℝ :=
  0

/-- `D3GDR0DTDP`, biotite.c 139. -/
def D3GDR0DTDP (t p r0 xan xph : ℝ) : ℝ :=
  0

/-- `D3GDR0DP2`, biotite.c 140. -/
def D3GDR0DP2 (t p r0 xan xph : ℝ) : ℝ :=
  0

/-- The macros as the functions of biotite.c use them: `gmix`, `hmix`, `smix`, `cpmix`, `vmix` and `act`. -/
def F (x : Fin 2 → ℝ) : Mix 1 where
  g t p r := G t p (r 0) (x 0) (x 1)
  gr t p r := ![DGDR0 t p (r 0) (x 0) (x 1)]
  grr t p r := ![![D2GDR0R0 t p (r 0) (x 0) (x 1)]]
  grrr t p r := ![![![D3GDR0R0R0 t p (r 0) (x 0) (x 1)]]]
  h t p r := (G t p (r 0) (x 0) (x 1)) + t * (S t p (r 0) (x 0) (x 1))
  s t p r := S t p (r 0) (x 0) (x 1)
  sr t p r := ![-(D2GDR0DT t p (r 0) (x 0) (x 1))]
  srr t p r := ![![-(D3GDR0R0DT t p (r 0) (x 0) (x 1))]]
  cp t p r := -t * (D2GDT2 t p (r 0) (x 0) (x 1))
  cpt t p r := -t * (D3GDT3 t p (r 0) (x 0) (x 1)) - D2GDT2 t p (r 0) (x 0) (x 1)
  cpr t p r := ![-t * (D3GDR0DT2 t p (r 0) (x 0) (x 1))]
  v t p r := DGDP t p (r 0) (x 0) (x 1)
  vr t p r := ![D2GDR0DP t p (r 0) (x 0) (x 1)]
  vrr t p r := ![![D3GDR0R0DP t p (r 0) (x 0) (x 1)]]
  vt t p r := D2GDTDP t p (r 0) (x 0) (x 1)
  vp t p r := D2GDP2 t p (r 0) (x 0) (x 1)
  vtt t p r := D3GDT2DP t p (r 0) (x 0) (x 1)
  vtp t p r := D3GDTDP2 t p (r 0) (x 0) (x 1)
  vpp t p r := D3GDP3 t p (r 0) (x 0) (x 1)
  vrt t p r := ![D3GDR0DTDP t p (r 0) (x 0) (x 1)]
  vrp t p r := ![D3GDR0DP2 t p (r 0) (x 0) (x 1)]
  fx r := ![x 0]

/-- Site fractions before clamping, lines 393 394 475 476 517 518 530 531 of biotite.c. -/
def raw (r : Fin 1 → ℝ) : Fin 2 → ℝ := ![r 0, 1 - r 0]

/-- The phase as coded in biotite.c. -/
def mix : Mix 1 := ofSites F fun r k => clamp (raw r k)

theorem G_d0 (t p r0 : ℝ) (h0 : 0 < r0) (h1 : 0 < 1 - r0) :
    HasDerivAt (fun r0 => G t p r0 r0 (1 - r0)) (DGDR0 t p r0 r0 (1 - r0)) r0 := by
  have n0 := h0.ne'
  have n1 := h1.ne'
  simp only [H, S, V, G, DGDR0]
  refine HasDerivAt.congr_deriv (by hd) ?_
  all_goals first | ring1 | (field_simp; done) | (field_simp; ring1)

theorem G_diff (t p : ℝ) (r : Fin 1 → ℝ) (h0 : 0 < r 0) (h1 : 0 < 1 - r 0) :
    DifferentiableAt ℝ (fun r : Fin 1 → ℝ => G t p (r 0) (r 0) (1 - r 0)) r := by
  have n0 := h0.ne'
  have n1 := h1.ne'
  simp only [H, S, V, G]
  dd

theorem DGDR0_d0 (t p r0 : ℝ) (h0 : 0 < r0) (h1 : 0 < 1 - r0) :
    HasDerivAt (fun r0 => DGDR0 t p r0 r0 (1 - r0)) (D2GDR0R0 t p r0 r0 (1 - r0)) r0 := by
  have n0 := h0.ne'
  have n1 := h1.ne'
  simp only [DGDR0, D2GDR0R0]
  refine HasDerivAt.congr_deriv (by hd) ?_
  all_goals first | ring1 | (field_simp; done) | (field_simp; ring1)

theorem DGDR0_diff (t p : ℝ) (r : Fin 1 → ℝ) (h0 : 0 < r 0) (h1 : 0 < 1 - r 0) :
    DifferentiableAt ℝ (fun r : Fin 1 → ℝ => DGDR0 t p (r 0) (r 0) (1 - r 0)) r := by
  have n0 := h0.ne'
  have n1 := h1.ne'
  simp only [DGDR0]
  dd

theorem D2GDR0R0_d0 (t p r0 : ℝ) (h0 : 0 < r0) (h1 : 0 < 1 - r0) :
    HasDerivAt (fun r0 => D2GDR0R0 t p r0 r0 (1 - r0)) (D3GDR0R0R0 t p r0 r0 (1 - r0)) r0 := by
  have n0 := h0.ne'
  have n1 := h1.ne'
  simp only [D2GDR0R0, D3GDR0R0R0]
  refine HasDerivAt.congr_deriv (by hd) ?_
  all_goals first | ring1 | (field_simp; done) | (field_simp; ring1)

theorem D2GDR0R0_diff (t p : ℝ) (r : Fin 1 → ℝ) (h0 : 0 < r 0) (h1 : 0 < 1 - r 0) :
    DifferentiableAt ℝ (fun r : Fin 1 → ℝ => D2GDR0R0 t p (r 0) (r 0) (1 - r 0)) r := by
  have n0 := h0.ne'
  have n1 := h1.ne'
  simp only [D2GDR0R0]
  dd

theorem S_d0 (t p r0 : ℝ) (h0 : 0 < r0) (h1 : 0 < 1 - r0) :
    HasDerivAt (fun r0 => S t p r0 r0 (1 - r0)) (-(D2GDR0DT t p r0 r0 (1 - r0))) r0 := by
  have n0 := h0.ne'
  have n1 := h1.ne'
  simp only [S, D2GDR0DT]
  refine HasDerivAt.congr_deriv (by hd) ?_
  all_goals first | ring1 | (field_simp; done) | (field_simp; ring1)

theorem S_diff (t p : ℝ) (r : Fin 1 → ℝ) (h0 : 0 < r 0) (h1 : 0 < 1 - r 0) :
    DifferentiableAt ℝ (fun r : Fin 1 → ℝ => S t p (r 0) (r 0) (1 - r 0)) r := by
  have n0 := h0.ne'
  have n1 := h1.ne'
  simp only [S]
  dd

theorem D2GDR0DT_d0 (t p r0 : ℝ) (h0 : 0 < r0) (h1 : 0 < 1 - r0) :
    HasDerivAt (fun r0 => D2GDR0DT t p r0 r0 (1 - r0)) (D3GDR0R0DT t p r0 r0 (1 - r0)) r0 := by
  have n0 := h0.ne'
  have n1 := h1.ne'
  simp only [D2GDR0DT, D3GDR0R0DT]
  refine HasDerivAt.congr_deriv (by hd) ?_
  all_goals first | ring1 | (field_simp; done) | (field_simp; ring1)

theorem D2GDR0DT_diff (t p : ℝ) (r : Fin 1 → ℝ) (h0 : 0 < r 0) (h1 : 0 < 1 - r 0) :
    DifferentiableAt ℝ (fun r : Fin 1 → ℝ => D2GDR0DT t p (r 0) (r 0) (1 - r 0)) r := by
  have n0 := h0.ne'
  have n1 := h1.ne'
  simp only [D2GDR0DT]
  dd

theorem DGDP_d0 (t p r0 : ℝ) (h0 : 0 < r0) (h1 : 0 < 1 - r0) :
    HasDerivAt (fun r0 => DGDP t p r0 r0 (1 - r0)) (D2GDR0DP t p r0 r0 (1 - r0)) r0 := by
  have n0 := h0.ne'
  have n1 := h1.ne'
  simp only [V, DGDP, D2GDR0DP]
  refine HasDerivAt.congr_deriv (by hd) ?_
  all_goals first | ring1 | (field_simp; done) | (field_simp; ring1)

theorem DGDP_diff (t p : ℝ) (r : Fin 1 → ℝ) (h0 : 0 < r 0) (h1 : 0 < 1 - r 0) :
    DifferentiableAt ℝ (fun r : Fin 1 → ℝ => DGDP t p (r 0) (r 0) (1 - r 0)) r := by
  have n0 := h0.ne'
  have n1 := h1.ne'
  simp only [V, DGDP]
  dd

theorem D2GDR0DP_d0 (t p r0 : ℝ) (h0 : 0 < r0) (h1 : 0 < 1 - r0) :
    HasDerivAt (fun r0 => D2GDR0DP t p r0 r0 (1 - r0)) (D3GDR0R0DP t p r0 r0 (1 - r0)) r0 := by
  have n0 := h0.ne'
  have n1 := h1.ne'
  simp only [D2GDR0DP, D3GDR0R0DP]
  refine HasDerivAt.congr_deriv (by hd) ?_
  all_goals first | ring1 | (field_simp; done) | (field_simp; ring1)

theorem D2GDR0DP_diff (t p : ℝ) (r : Fin 1 → ℝ) (h0 : 0 < r 0) (h1 : 0 < 1 - r 0) :
    DifferentiableAt ℝ (fun r : Fin 1 → ℝ => D2GDR0DP t p (r 0) (r 0) (1 - r 0)) r := by
  have n0 := h0.ne'
  have n1 := h1.ne'
  simp only [D2GDR0DP]
  dd

set_option maxHeartbeats 1600000 in
theorem consistent_raw : (ofSites F raw).Consistent (Interior raw) := by
  have posr : ∀ r, Interior raw r → ∀ k, 0 < raw r k := fun r hr k => lt_trans eps_pos (hr k)
  constructor
  · intro t p r hr
    have pos := posr r hr
    refine grad_of_partials (G_diff t p r (pos 0) (pos 1)) fun j => partial_of_update ?_
    fin_cases j
    · exact (G_d0 t p (r 0) (pos 0) (pos 1))
  · intro t p r hr i
    have pos := posr r hr
    fin_cases i
    · skip
      refine grad_of_partials (DGDR0_diff t p r (pos 0) (pos 1)) fun j => partial_of_update ?_
      fin_cases j
      · exact (DGDR0_d0 t p (r 0) (pos 0) (pos 1))
  · intro t p r hr i j
    have pos := posr r hr
    fin_cases i <;> fin_cases j
    · skip
      refine grad_of_partials (D2GDR0R0_diff t p r (pos 0) (pos 1)) fun j => partial_of_update ?_
      fin_cases j
      · exact (D2GDR0R0_d0 t p (r 0) (pos 0) (pos 1))
  · intro t p r hr
    simp only [ofSites, F, H, S, V, G]
    refine HasDerivAt.congr_deriv (by hd) ?_
    ring
  · intro t p r hr; rfl
  · intro t p r hr
    have pos := posr r hr
    refine grad_of_partials (S_diff t p r (pos 0) (pos 1)) fun j => partial_of_update ?_
    fin_cases j
    · exact S_d0 t p (r 0) (pos 0) (pos 1)
  · intro t p r hr i
    have pos := posr r hr
    fin_cases i
    · skip
      refine grad_of_partials ((D2GDR0DT_diff t p r (pos 0) (pos 1)).fun_neg) fun j => partial_of_update ?_
      fin_cases j
      · exact ((D2GDR0DT_d0 t p (r 0) (pos 0) (pos 1))).fun_neg
  · intro t p r hr
    simp only [ofSites, F, H, S, V, G, D2GDT2]
    refine HasDerivAt.congr_deriv (by hd) ?_
    ring
  · intro t p r hr
    simp only [ofSites, F, D2GDT2, D3GDT3]
    refine HasDerivAt.congr_deriv (by hd) ?_
    ring
  · intro t p r hr
    refine grad_of_partials ?_ fun j => partial_of_update ?_
    · simp only [ofSites, F, D2GDT2]; dd
    · fin_cases j
      · change HasDerivAt (fun _ : ℝ => -t * (0 : ℝ)) (-t * (0 : ℝ)) _
        exact (hasDerivAt_const _ _).congr_deriv (by ring)
  · intro t p r hr
    simp only [ofSites, F, H, S, V, G, DGDP]
    refine HasDerivAt.congr_deriv (by hd) ?_
    ring
  · intro t p r hr
    have pos := posr r hr
    refine grad_of_partials (DGDP_diff t p r (pos 0) (pos 1)) fun j => partial_of_update ?_
    fin_cases j
    · exact (DGDP_d0 t p (r 0) (pos 0) (pos 1))
  · intro t p r hr i
    have pos := posr r hr
    fin_cases i
    · skip
      refine grad_of_partials (D2GDR0DP_diff t p r (pos 0) (pos 1)) fun j => partial_of_update ?_
      fin_cases j
      · exact (D2GDR0DP_d0 t p (r 0) (pos 0) (pos 1))
  · intro t p r hr
    simp only [ofSites, F, V, DGDP, D2GDTDP]
    refine HasDerivAt.congr_deriv (by hd) ?_
    ring
  · intro t p r hr
    simp only [ofSites, F, V, DGDP, D2GDP2]
    refine HasDerivAt.congr_deriv (by hd) ?_
    ring
  · intro t p r hr
    simp only [ofSites, F, D2GDTDP, D3GDT2DP]
    refine HasDerivAt.congr_deriv (by hd) ?_
    ring
  · intro t p r hr
    simp only [ofSites, F, D2GDTDP, D3GDTDP2]
    refine HasDerivAt.congr_deriv (by hd) ?_
    ring
  · intro t p r hr
    simp only [ofSites, F, D2GDP2, D3GDP3]
    refine HasDerivAt.congr_deriv (by hd) ?_
    ring
  · intro t p r hr i
    fin_cases i
    · change HasDerivAt (fun t => D2GDR0DP t p (r 0) (raw r 0) (raw r 1)) (D3GDR0DTDP t p (r 0) (raw r 0) (raw r 1)) t
      simp only [D2GDR0DP, D3GDR0DTDP]
      refine HasDerivAt.congr_deriv (by hd) ?_
      ring
  · intro t p r hr i
    fin_cases i
    · change HasDerivAt (fun p => D2GDR0DP t p (r 0) (raw r 0) (raw r 1)) (D3GDR0DP2 t p (r 0) (raw r 0) (raw r 1)) p
      simp only [D2GDR0DP, D3GDR0DP2]
      refine HasDerivAt.congr_deriv (by hd) ?_
      ring
  · intro t p r hr i
    fin_cases i
    · change HasDerivAt (fun t => DGDR0 t p (r 0) (raw r 0) (raw r 1)) (-(-(D2GDR0DT t p (r 0) (raw r 0) (raw r 1)))) t
      simp only [DGDR0, D2GDR0DT]
      refine HasDerivAt.congr_deriv (by hd) ?_
      ring
  · intro t p r hr i
    fin_cases i
    · change HasDerivAt (fun p => DGDR0 t p (r 0) (raw r 0) (raw r 1)) (D2GDR0DP t p (r 0) (raw r 0) (raw r 1)) p
      simp only [DGDR0, D2GDR0DP]
      refine HasDerivAt.congr_deriv (by hd) ?_
      ring
  · intro t p r hr h0 i
    fin_cases i
    · change HasDerivAt (fun t => -(D2GDR0DT t p (r 0) (raw r 0) (raw r 1))) (-t * (D3GDR0DT2 t p (r 0) (raw r 0) (raw r 1)) / t) t
      simp only [D2GDR0DT, D3GDR0DT2]
      refine HasDerivAt.congr_deriv (by hd) ?_
      first | ring | (field_simp; ring)
  · intro t p r hr
    refine grad_of_partials ?_ fun j => partial_of_update ?_
    · simp only [ofSites, F, D2GDP2]; dd
    · fin_cases j
      · change HasDerivAt (fun _ : ℝ => (0 : ℝ)) (0 : ℝ) _
        exact hasDerivAt_const _ _
  · intro t p r hr i j; fin_cases i <;> fin_cases j <;> rfl
  · intro t p r hr i j k; fin_cases i <;> fin_cases j <;> fin_cases k <;> exact ⟨rfl, rfl⟩
  · intro r hr; funext i; fin_cases i <;> rfl

theorem raw_continuous (k : Fin 2) : Continuous fun r => raw r k := by
  fin_cases k
  · change Continuous fun r : Fin 1 → ℝ => r 0
    fun_prop
  · change Continuous fun r : Fin 1 → ℝ => 1 - r 0
    fun_prop

theorem consistent : mix.Consistent (Interior raw) := consistent_clamp F raw raw_continuous consistent_raw

/-- The dependent end member of biotite.c. -/
def dep : Fin 2 := 1

end Biotite

/-- **C24.** Biotite (biotite.c): derivatives, entropy, enthalpy, heat capacity and volume of mixing fit together. -/
theorem C24_biotite : Biotite.mix.Consistent (Interior Biotite.raw) := Biotite.consistent

/-- The interior contains the composition 1 / 4. -/
example : Interior Biotite.raw ![1 / 4] := by
  intro k
  fin_cases k
  · change ((1 / 4) : ℝ) > eps; unfold eps; norm_num
  · change (1 - (1 / 4) : ℝ) > eps; unfold eps; norm_num

/-- **C24.** The chemical potentials `act*` returns are the derivatives of the total Gibbs energy of mixing. -/
theorem C24_biotite_potentials (t p : ℝ) (m : Fin 2 → ℝ) (h0 : ∑ i, m i ≠ 0)
    (hr : Interior Biotite.raw (toR Biotite.dep m)) (i : Fin 2) :
    Partial (fun m => (∑ i, m i) * Biotite.mix.g t p (toR Biotite.dep m)) m i
      (mu Biotite.mix Biotite.dep t p (toR Biotite.dep m) i) :=
  C24_potential_is_derivative _ _ Biotite.consistent _ t p m h0 hr i

/-- **C24.** The derivatives of the activities `act*` returns are their derivatives. -/
theorem C24_biotite_activities (t p : ℝ) (r : Fin 1 → ℝ) (hr : Interior Biotite.raw r) (i : Fin 2)
    (k : Fin 1) : Partial (fun r => act Biotite.mix Biotite.dep t p r i) r k (dact Biotite.mix Biotite.dep t p r i k) :=
  C24_activity_derivative _ _ Biotite.consistent (isOpen_interior _ Biotite.raw_continuous) _ t p r hr i k

namespace OlivineSx

/-- `WH112`, olivine-sx.c 60. -/
def WH112 : ℝ := 4500

/-- `WS112`, olivine-sx.c 61. -/
def WS112 : ℝ := 0

/-- `WV112`, olivine-sx.c 62. -/
def WV112 : ℝ := 0

/-- `WH122`, olivine-sx.c 63. -/
def WH122 : ℝ := 4500

/-- `WS122`, olivine-sx.c 64. -/
def WS122 : ℝ := 0

/-- `WV122`, olivine-sx.c 65. -/
def WV122 : ℝ := 0

/-- `WG112`, olivine-sx.c 67. -/
def WG112 (t p r0 xmg xfe : ℝ) : ℝ :=
  WH112 - t * WS112 + p * WV112

/-- `WG122`, olivine-sx.c 68. -/
def WG122 (t p r0 xmg xfe : ℝ) : ℝ :=
  WH122 - t * WS122 + p * WV122

/-- `S`, olivine-sx.c 84. -/
def S (t p r0 xmg xfe : ℝ) : ℝ :=
  (-R) * (xmg * Real.log xmg + xfe * Real.log xfe) + WS112 * xmg * xfe * xmg + WS122 * xmg * xfe * xfe

/-- `H`, olivine-sx.c 85. -/
def H (t p r0 xmg xfe : ℝ) : ℝ :=
  WH112 * xmg * xfe * xmg + WH122 * xmg * xfe * xfe

/-- `V`, olivine-sx.c 86. -/
def V (t p r0 xmg xfe : ℝ) : ℝ :=
  WV112 * xmg * xfe * xmg + WV122 * xmg * xfe * xfe

/-- `G`, olivine-sx.c 87. -/
def G (t p r0 xmg xfe : ℝ) : ℝ :=
  (H t p r0 xmg xfe) - t * (S t p r0 xmg xfe) + p * (V t p r0 xmg xfe)

/-- `DGDR0`, olivine-sx.c 89. -/
def DGDR0 (t p r0 xmg xfe : ℝ) : ℝ :=
  R * t * (Real.log xmg - Real.log xfe) + (WG112 t p r0 xmg xfe) * (xmg * xfe + (xfe - xmg) * xmg) + (WG122 t
    p r0 xmg xfe) * ((-xmg) * xfe + (xfe - xmg) * xfe)

/-- `DGDP`, olivine-sx.c 90. -/
def DGDP (t p r0 xmg xfe : ℝ) : ℝ :=
  (V t p r0 xmg xfe)

/-- `D2GDR0R0`, olivine-sx.c 92. -/
def D2GDR0R0 (t p r0 xmg xfe : ℝ) : ℝ :=
  R * t * (1 / xmg + 1 / xfe) + 2 * (xfe - xmg) * ((WG112 t p r0 xmg xfe) - (WG122 t p r0 xmg xfe)) - 2 *
    (WG112 t p r0 xmg xfe) * xmg - 2 * (WG122 t p r0 xmg xfe) * xfe

/-- `D2GDR0DT`, olivine-sx.c 93. -/
def D2GDR0DT (t p r0 xmg xfe : ℝ) : ℝ :=
  R * (Real.log xmg - Real.log xfe) - (WS112 * (xmg * xfe + (xfe - xmg) * xmg) + WS122 * ((-xmg) * xfe + (xfe
    - xmg) * xfe))

/-- `D2GDR0DP`, olivine-sx.c 94. -/
def D2GDR0DP (t p r0 xmg xfe : ℝ) : ℝ :=
  WV112 * (xmg * xfe + (xfe - xmg) * xmg) + WV122 * ((-xmg) * xfe + (xfe - xmg) * xfe)

/-- `D2GDT2`, olivine-sx.c 95. -/
def D2GDT2 (t p r0 xmg xfe : ℝ) : ℝ :=
  0

/-- `D2GDTDP`, olivine-sx.c 96. -/
def D2GDTDP (t p r0 xmg xfe : ℝ) : ℝ :=
  0

/-- `D2GDP2`, olivine-sx.c 97. -/
def D2GDP2 (t p r0 xmg xfe : ℝ) : ℝ :=
  0

/-- `D3GDR0R0R0`, olivine-sx.c 99. -/
def D3GDR0R0R0 (t p r0 xmg xfe : ℝ) : ℝ :=
  R * t * (1 / xfe ^ 2 - 1 / xmg ^ 2) + 6 * (WG122 t p r0 xmg xfe) - 6 * (WG112 t p r0 xmg xfe)

/-- `D3GDR0R0DT`, olivine-sx.c 100. -/
def D3GDR0R0DT (t p r0 xmg xfe : ℝ) : ℝ :=
  R * (1 / xmg + 1 / xfe) - (2 * (xfe - xmg) * (WS112 - WS122) - 2 * WS112 * xmg - 2 * WS122 * xfe)

/-- `D3GDR0R0DP`, olivine-sx.c 101. -/
def D3GDR0R0DP (t p r0 xmg xfe : ℝ) : ℝ :=
  2 * (xfe - xmg) * (WV112 - WV122) - 2 * WV112 * xmg - 2 * WV122 * xfe

/-- `D3GDT3`, olivine-sx.c 102. -/
def D3GDT3 (t p r0 xmg xfe : ℝ) : ℝ :=
  0

/-- `D3GDT2DP`, olivine-sx.c 103. -/
def D3GDT2DP (t p r0 xmg xfe : ℝ) : ℝ :=
  0

/-- `D3GDTDP2`, olivine-sx.c 104. -/
def D3GDTDP2 (t p r0 xmg xfe : ℝ) : ℝ :=
  0

/-- `D3GDP3`, olivine-sx.c 105. -/
def D3GDP3 (t p r0 xmg xfe : ℝ) : ℝ :=
  0

/-- `D3GDR0DT2`, olivine-sx.c 107. -/
def D3GDR0DT2 (t p r0 xmg xfe : ℝ) : ℝ :=
  0

/-- `D3GDR0DTDP`, olivine-sx.c 108. -/
def D3GDR0DTDP (t p r0 xmg xfe : ℝ) : ℝ :=
  0

/-- `D3GDR0DP2`, olivine-sx.c 109. -/
def D3GDR0DP2 (t p r0 xmg xfe : ℝ) : ℝ :=
  0

/-- The macros as the functions of olivine-sx.c use them: `gmix`, `hmix`, `smix`, `cpmix`, `vmix` and `act`. -/
def F (x : Fin 2 → ℝ) : Mix 1 where
  g t p r := G t p (r 0) (x 0) (x 1)
  gr t p r := ![DGDR0 t p (r 0) (x 0) (x 1)]
  grr t p r := ![![D2GDR0R0 t p (r 0) (x 0) (x 1)]]
  grrr t p r := ![![![D3GDR0R0R0 t p (r 0) (x 0) (x 1)]]]
  h t p r := (G t p (r 0) (x 0) (x 1)) + t * (S t p (r 0) (x 0) (x 1))
  s t p r := S t p (r 0) (x 0) (x 1)
  sr t p r := ![-(D2GDR0DT t p (r 0) (x 0) (x 1))]
  srr t p r := ![![-(D3GDR0R0DT t p (r 0) (x 0) (x 1))]]
  cp t p r := -t * (D2GDT2 t p (r 0) (x 0) (x 1))
  cpt t p r := -t * (D3GDT3 t p (r 0) (x 0) (x 1)) - D2GDT2 t p (r 0) (x 0) (x 1)
  cpr t p r := ![-t * (D3GDR0DT2 t p (r 0) (x 0) (x 1))]
  v t p r := DGDP t p (r 0) (x 0) (x 1)
  vr t p r := ![D2GDR0DP t p (r 0) (x 0) (x 1)]
  vrr t p r := ![![D3GDR0R0DP t p (r 0) (x 0) (x 1)]]
  vt t p r := D2GDTDP t p (r 0) (x 0) (x 1)
  vp t p r := D2GDP2 t p (r 0) (x 0) (x 1)
  vtt t p r := D3GDT2DP t p (r 0) (x 0) (x 1)
  vtp t p r := D3GDTDP2 t p (r 0) (x 0) (x 1)
  vpp t p r := D3GDP3 t p (r 0) (x 0) (x 1)
  vrt t p r := ![D3GDR0DTDP t p (r 0) (x 0) (x 1)]
  vrp t p r := ![D3GDR0DP2 t p (r 0) (x 0) (x 1)]
  fx r := ![x 0]

/-- Site fractions before clamping, lines 362 363 439 440 480 481 493 494 566 567 of olivine-sx.c. -/
def raw (r : Fin 1 → ℝ) : Fin 2 → ℝ := ![r 0, 1 - r 0]

/-- The phase as coded in olivine-sx.c. -/
def mix : Mix 1 := ofSites F fun r k => clamp (raw r k)

theorem G_d0 (t p r0 : ℝ) (h0 : 0 < r0) (h1 : 0 < 1 - r0) :
    HasDerivAt (fun r0 => G t p r0 r0 (1 - r0)) (DGDR0 t p r0 r0 (1 - r0)) r0 := by
  have n0 := h0.ne'
  have n1 := h1.ne'
  simp only [H, S, V, G, WG112, WG122, DGDR0]
  refine HasDerivAt.congr_deriv (by hd) ?_
  all_goals first | ring1 | (field_simp; done) | (field_simp; ring1)

theorem G_diff (t p : ℝ) (r : Fin 1 → ℝ) (h0 : 0 < r 0) (h1 : 0 < 1 - r 0) :
    DifferentiableAt ℝ (fun r : Fin 1 → ℝ => G t p (r 0) (r 0) (1 - r 0)) r := by
  have n0 := h0.ne'
  have n1 := h1.ne'
  simp only [H, S, V, G]
  dd

theorem DGDR0_d0 (t p r0 : ℝ) (h0 : 0 < r0) (h1 : 0 < 1 - r0) :
    HasDerivAt (fun r0 => DGDR0 t p r0 r0 (1 - r0)) (D2GDR0R0 t p r0 r0 (1 - r0)) r0 := by
  have n0 := h0.ne'
  have n1 := h1.ne'
  simp only [WG112, WG122, DGDR0, D2GDR0R0]
  refine HasDerivAt.congr_deriv (by hd) ?_
  all_goals first | ring1 | (field_simp; done) | (field_simp; ring1)

theorem DGDR0_diff (t p : ℝ) (r : Fin 1 → ℝ) (h0 : 0 < r 0) (h1 : 0 < 1 - r 0) :
    DifferentiableAt ℝ (fun r : Fin 1 → ℝ => DGDR0 t p (r 0) (r 0) (1 - r 0)) r := by
  have n0 := h0.ne'
  have n1 := h1.ne'
  simp only [WG112, WG122, DGDR0]
  dd

theorem D2GDR0R0_d0 (t p r0 : ℝ) (h0 : 0 < r0) (h1 : 0 < 1 - r0) :
    HasDerivAt (fun r0 => D2GDR0R0 t p r0 r0 (1 - r0)) (D3GDR0R0R0 t p r0 r0 (1 - r0)) r0 := by
  have n0 := h0.ne'
  have n1 := h1.ne'
  simp only [WG112, WG122, D2GDR0R0, D3GDR0R0R0]
  refine HasDerivAt.congr_deriv (by hd) ?_
  all_goals first | ring1 | (field_simp; done) | (field_simp; ring1)

theorem D2GDR0R0_diff (t p : ℝ) (r : Fin 1 → ℝ) (h0 : 0 < r 0) (h1 : 0 < 1 - r 0) :
    DifferentiableAt ℝ (fun r : Fin 1 → ℝ => D2GDR0R0 t p (r 0) (r 0) (1 - r 0)) r := by
  have n0 := h0.ne'
  have n1 := h1.ne'
  simp only [WG112, WG122, D2GDR0R0]
  dd

theorem S_d0 (t p r0 : ℝ) (h0 : 0 < r0) (h1 : 0 < 1 - r0) :
    HasDerivAt (fun r0 => S t p r0 r0 (1 - r0)) (-(D2GDR0DT t p r0 r0 (1 - r0))) r0 := by
  have n0 := h0.ne'
  have n1 := h1.ne'
  simp only [S, D2GDR0DT]
  refine HasDerivAt.congr_deriv (by hd) ?_
  all_goals first | ring1 | (field_simp; done) | (field_simp; ring1)

theorem S_diff (t p : ℝ) (r : Fin 1 → ℝ) (h0 : 0 < r 0) (h1 : 0 < 1 - r 0) :
    DifferentiableAt ℝ (fun r : Fin 1 → ℝ => S t p (r 0) (r 0) (1 - r 0)) r := by
  have n0 := h0.ne'
  have n1 := h1.ne'
  simp only [S]
  dd

theorem D2GDR0DT_d0 (t p r0 : ℝ) (h0 : 0 < r0) (h1 : 0 < 1 - r0) :
    HasDerivAt (fun r0 => D2GDR0DT t p r0 r0 (1 - r0)) (D3GDR0R0DT t p r0 r0 (1 - r0)) r0 := by
  have n0 := h0.ne'
  have n1 := h1.ne'
  simp only [D2GDR0DT, D3GDR0R0DT]
  refine HasDerivAt.congr_deriv (by hd) ?_
  all_goals first | ring1 | (field_simp; done) | (field_simp; ring1)

theorem D2GDR0DT_diff (t p : ℝ) (r : Fin 1 → ℝ) (h0 : 0 < r 0) (h1 : 0 < 1 - r 0) :
    DifferentiableAt ℝ (fun r : Fin 1 → ℝ => D2GDR0DT t p (r 0) (r 0) (1 - r 0)) r := by
  have n0 := h0.ne'
  have n1 := h1.ne'
  simp only [D2GDR0DT]
  dd

theorem DGDP_d0 (t p r0 : ℝ) (h0 : 0 < r0) (h1 : 0 < 1 - r0) :
    HasDerivAt (fun r0 => DGDP t p r0 r0 (1 - r0)) (D2GDR0DP t p r0 r0 (1 - r0)) r0 := by
  have n0 := h0.ne'
  have n1 := h1.ne'
  simp only [V, DGDP, D2GDR0DP]
  refine HasDerivAt.congr_deriv (by hd) ?_
  all_goals first | ring1 | (field_simp; done) | (field_simp; ring1)

theorem DGDP_diff (t p : ℝ) (r : Fin 1 → ℝ) (h0 : 0 < r 0) (h1 : 0 < 1 - r 0) :
    DifferentiableAt ℝ (fun r : Fin 1 → ℝ => DGDP t p (r 0) (r 0) (1 - r 0)) r := by
  have n0 := h0.ne'
  have n1 := h1.ne'
  simp only [V, DGDP]
  dd

theorem D2GDR0DP_d0 (t p r0 : ℝ) (h0 : 0 < r0) (h1 : 0 < 1 - r0) :
    HasDerivAt (fun r0 => D2GDR0DP t p r0 r0 (1 - r0)) (D3GDR0R0DP t p r0 r0 (1 - r0)) r0 := by
  have n0 := h0.ne'
  have n1 := h1.ne'
  simp only [D2GDR0DP, D3GDR0R0DP]
  refine HasDerivAt.congr_deriv (by hd) ?_
  all_goals first | ring1 | (field_simp; done) | (field_simp; ring1)

theorem D2GDR0DP_diff (t p : ℝ) (r : Fin 1 → ℝ) (h0 : 0 < r 0) (h1 : 0 < 1 - r 0) :
    DifferentiableAt ℝ (fun r : Fin 1 → ℝ => D2GDR0DP t p (r 0) (r 0) (1 - r 0)) r := by
  have n0 := h0.ne'
  have n1 := h1.ne'
  simp only [D2GDR0DP]
  dd

set_option maxHeartbeats 1600000 in
theorem consistent_raw : (ofSites F raw).Consistent (Interior raw) := by
  have posr : ∀ r, Interior raw r → ∀ k, 0 < raw r k := fun r hr k => lt_trans eps_pos (hr k)
  constructor
  · intro t p r hr
    have pos := posr r hr
    refine grad_of_partials (G_diff t p r (pos 0) (pos 1)) fun j => partial_of_update ?_
    fin_cases j
    · exact (G_d0 t p (r 0) (pos 0) (pos 1))
  · intro t p r hr i
    have pos := posr r hr
    fin_cases i
    · skip
      refine grad_of_partials (DGDR0_diff t p r (pos 0) (pos 1)) fun j => partial_of_update ?_
      fin_cases j
      · exact (DGDR0_d0 t p (r 0) (pos 0) (pos 1))
  · intro t p r hr i j
    have pos := posr r hr
    fin_cases i <;> fin_cases j
    · skip
      refine grad_of_partials (D2GDR0R0_diff t p r (pos 0) (pos 1)) fun j => partial_of_update ?_
      fin_cases j
      · exact (D2GDR0R0_d0 t p (r 0) (pos 0) (pos 1))
  · intro t p r hr
    simp only [ofSites, F, H, S, V, G]
    refine HasDerivAt.congr_deriv (by hd) ?_
    ring
  · intro t p r hr; rfl
  · intro t p r hr
    have pos := posr r hr
    refine grad_of_partials (S_diff t p r (pos 0) (pos 1)) fun j => partial_of_update ?_
    fin_cases j
    · exact S_d0 t p (r 0) (pos 0) (pos 1)
  · intro t p r hr i
    have pos := posr r hr
    fin_cases i
    · skip
      refine grad_of_partials ((D2GDR0DT_diff t p r (pos 0) (pos 1)).fun_neg) fun j => partial_of_update ?_
      fin_cases j
      · exact ((D2GDR0DT_d0 t p (r 0) (pos 0) (pos 1))).fun_neg
  · intro t p r hr
    simp only [ofSites, F, H, S, V, G, D2GDT2]
    refine HasDerivAt.congr_deriv (by hd) ?_
    ring
  · intro t p r hr
    simp only [ofSites, F, D2GDT2, D3GDT3]
    refine HasDerivAt.congr_deriv (by hd) ?_
    ring
  · intro t p r hr
    refine grad_of_partials ?_ fun j => partial_of_update ?_
    · simp only [ofSites, F, D2GDT2]; dd
    · fin_cases j
      · change HasDerivAt (fun _ : ℝ => -t * (0 : ℝ)) (-t * (0 : ℝ)) _
        exact (hasDerivAt_const _ _).congr_deriv (by ring)
  · intro t p r hr
    simp only [ofSites, F, H, S, V, G, DGDP]
    refine HasDerivAt.congr_deriv (by hd) ?_
    ring
  · intro t p r hr
    have pos := posr r hr
    refine grad_of_partials (DGDP_diff t p r (pos 0) (pos 1)) fun j => partial_of_update ?_
    fin_cases j
    · exact (DGDP_d0 t p (r 0) (pos 0) (pos 1))
  · intro t p r hr i
    have pos := posr r hr
    fin_cases i
    · skip
      refine grad_of_partials (D2GDR0DP_diff t p r (pos 0) (pos 1)) fun j => partial_of_update ?_
      fin_cases j
      · exact (D2GDR0DP_d0 t p (r 0) (pos 0) (pos 1))
  · intro t p r hr
    simp only [ofSites, F, V, DGDP, D2GDTDP]
    refine HasDerivAt.congr_deriv (by hd) ?_
    ring
  · intro t p r hr
    simp only [ofSites, F, V, DGDP, D2GDP2]
    refine HasDerivAt.congr_deriv (by hd) ?_
    ring
  · intro t p r hr
    simp only [ofSites, F, D2GDTDP, D3GDT2DP]
    refine HasDerivAt.congr_deriv (by hd) ?_
    ring
  · intro t p r hr
    simp only [ofSites, F, D2GDTDP, D3GDTDP2]
    refine HasDerivAt.congr_deriv (by hd) ?_
    ring
  · intro t p r hr
    simp only [ofSites, F, D2GDP2, D3GDP3]
    refine HasDerivAt.congr_deriv (by hd) ?_
    ring
  · intro t p r hr i
    fin_cases i
    · change HasDerivAt (fun t => D2GDR0DP t p (r 0) (raw r 0) (raw r 1)) (D3GDR0DTDP t p (r 0) (raw r 0) (raw r 1)) t
      simp only [D2GDR0DP, D3GDR0DTDP]
      refine HasDerivAt.congr_deriv (by hd) ?_
      ring
  · intro t p r hr i
    fin_cases i
    · change HasDerivAt (fun p => D2GDR0DP t p (r 0) (raw r 0) (raw r 1)) (D3GDR0DP2 t p (r 0) (raw r 0) (raw r 1)) p
      simp only [D2GDR0DP, D3GDR0DP2]
      refine HasDerivAt.congr_deriv (by hd) ?_
      ring
  · intro t p r hr i
    fin_cases i
    · change HasDerivAt (fun t => DGDR0 t p (r 0) (raw r 0) (raw r 1)) (-(-(D2GDR0DT t p (r 0) (raw r 0) (raw r 1)))) t
      simp only [WG112, WG122, DGDR0, D2GDR0DT]
      refine HasDerivAt.congr_deriv (by hd) ?_
      ring
  · intro t p r hr i
    fin_cases i
    · change HasDerivAt (fun p => DGDR0 t p (r 0) (raw r 0) (raw r 1)) (D2GDR0DP t p (r 0) (raw r 0) (raw r 1)) p
      simp only [WG112, WG122, DGDR0, D2GDR0DP]
      refine HasDerivAt.congr_deriv (by hd) ?_
      ring
  · intro t p r hr h0 i
    fin_cases i
    · change HasDerivAt (fun t => -(D2GDR0DT t p (r 0) (raw r 0) (raw r 1))) (-t * (D3GDR0DT2 t p (r 0) (raw r 0) (raw r 1)) / t) t
      simp only [D2GDR0DT, D3GDR0DT2]
      refine HasDerivAt.congr_deriv (by hd) ?_
      first | ring | (field_simp; ring)
  · intro t p r hr
    refine grad_of_partials ?_ fun j => partial_of_update ?_
    · simp only [ofSites, F, D2GDP2]; dd
    · fin_cases j
      · change HasDerivAt (fun _ : ℝ => (0 : ℝ)) (0 : ℝ) _
        exact hasDerivAt_const _ _
  · intro t p r hr i j; fin_cases i <;> fin_cases j <;> rfl
  · intro t p r hr i j k; fin_cases i <;> fin_cases j <;> fin_cases k <;> exact ⟨rfl, rfl⟩
  · intro r hr; funext i; fin_cases i <;> rfl

theorem raw_continuous (k : Fin 2) : Continuous fun r => raw r k := by
  fin_cases k
  · change Continuous fun r : Fin 1 → ℝ => r 0
    fun_prop
  · change Continuous fun r : Fin 1 → ℝ => 1 - r 0
    fun_prop

theorem consistent : mix.Consistent (Interior raw) := consistent_clamp F raw raw_continuous consistent_raw

/-- The dependent end member of olivine-sx.c. -/
def dep : Fin 2 := 1

end OlivineSx

/-- **C24.** OlivineSx (olivine-sx.c): derivatives, entropy, enthalpy, heat capacity and volume of mixing fit together. -/
theorem C24_olivineSx : OlivineSx.mix.Consistent (Interior OlivineSx.raw) := OlivineSx.consistent

/-- The interior contains the composition 1 / 4. -/
example : Interior OlivineSx.raw ![1 / 4] := by
  intro k
  fin_cases k
  · change ((1 / 4) : ℝ) > eps; unfold eps; norm_num
  · change (1 - (1 / 4) : ℝ) > eps; unfold eps; norm_num

/-- **C24.** The chemical potentials `act*` returns are the derivatives of the total Gibbs energy of mixing. -/
theorem C24_olivineSx_potentials (t p : ℝ) (m : Fin 2 → ℝ) (h0 : ∑ i, m i ≠ 0)
    (hr : Interior OlivineSx.raw (toR OlivineSx.dep m)) (i : Fin 2) :
    Partial (fun m => (∑ i, m i) * OlivineSx.mix.g t p (toR OlivineSx.dep m)) m i
      (mu OlivineSx.mix OlivineSx.dep t p (toR OlivineSx.dep m) i) :=
  C24_potential_is_derivative _ _ OlivineSx.consistent _ t p m h0 hr i

/-- **C24.** The derivatives of the activities `act*` returns are their derivatives. -/
theorem C24_olivineSx_activities (t p : ℝ) (r : Fin 1 → ℝ) (hr : Interior OlivineSx.raw r) (i : Fin 2)
    (k : Fin 1) : Partial (fun r => act OlivineSx.mix OlivineSx.dep t p r i) r k (dact OlivineSx.mix OlivineSx.dep t p r i k) :=
  C24_activity_derivative _ _ OlivineSx.consistent (isOpen_interior _ OlivineSx.raw_continuous) _ t p r hr i k

namespace Perovskite

/-- `WH112`, perovskite.c 60. -/
def WH112 : ℝ := -4050

/-- `WS112`, perovskite.c 61. -/
def WS112 : ℝ := (29 / 20)

/-- `WV112`, perovskite.c 62. -/
def WV112 : ℝ := (3 / 200)

/-- `WH122`, perovskite.c 63. -/
def WH122 : ℝ := 4120

/-- `WS122`, perovskite.c 64. -/
def WS122 : ℝ := (127 / 100)

/-- `WV122`, perovskite.c 65. -/
def WV122 : ℝ := (11 / 1000)

/-- `WG112`, perovskite.c 67. -/
def WG112 (t p r0 xmg xfe : ℝ) : ℝ :=
  WH112 - t * WS112 + p * WV112

/-- `WG122`, perovskite.c 68. -/
def WG122 (t p r0 xmg xfe : ℝ) : ℝ :=
  WH122 - t * WS122 + p * WV122

/-- `S`, perovskite.c 84. -/
def S (t p r0 xmg xfe : ℝ) : ℝ :=
  (-R) * (xmg * Real.log xmg + xfe * Real.log xfe) + WS112 * xmg * xfe * xmg + WS122 * xmg * xfe * xfe

/-- `H`, perovskite.c 85. -/
def H (t p r0 xmg xfe : ℝ) : ℝ :=
  WH112 * xmg * xfe * xmg + WH122 * xmg * xfe * xfe

/-- `V`, perovskite.c 86. -/
def V (t p r0 xmg xfe : ℝ) : ℝ :=
  WV112 * xmg * xfe * xmg + WV122 * xmg * xfe * xfe

/-- `G`, perovskite.c 87. -/
def G (t p r0 xmg xfe : ℝ) : ℝ :=
  (H t p r0 xmg xfe) - t * (S t p r0 xmg xfe) + p * (V t p r0 xmg xfe)

/-- `DGDR0`, perovskite.c 89. -/
def DGDR0 (t p r0 xmg xfe : ℝ) : ℝ :=
  R * t * (Real.log xmg - Real.log xfe) + (WG112 t p r0 xmg xfe) * (xmg * xfe + (xfe - xmg) * xmg) + (WG122 t
    p r0 xmg xfe) * ((-xmg) * xfe + (xfe - xmg) * xfe)

/-- `DGDP`, perovskite.c 90. -/
def DGDP (t p r0 xmg xfe : ℝ) : ℝ :=
  (V t p r0 xmg xfe)

/-- `D2GDR0R0`, perovskite.c 92. -/
def D2GDR0R0 (t p r0 xmg xfe : ℝ) : ℝ :=
  R * t * (1 / xmg + 1 / xfe) + 2 * (xfe - xmg) * ((WG112 t p r0 xmg xfe) - (WG122 t p r0 xmg xfe)) - 2 *
    (WG112 t p r0 xmg xfe) * xmg - 2 * (WG122 t p r0 xmg xfe) * xfe

/-- `D2GDR0DT`, perovskite.c 93. -/
def D2GDR0DT (t p r0 xmg xfe : ℝ) : ℝ :=
  R * (Real.log xmg - Real.log xfe) - (WS112 * (xmg * xfe + (xfe - xmg) * xmg) + WS122 * ((-xmg) * xfe + (xfe
    - xmg) * xfe))

/-- `D2GDR0DP`, perovskite.c 94. -/
def D2GDR0DP (t p r0 xmg xfe : ℝ) : ℝ :=
  WV112 * (xmg * xfe + (xfe - xmg) * xmg) + WV122 * ((-xmg) * xfe + (xfe - xmg) * xfe)

/-- `D2GDT2`, perovskite.c 95. -/
def D2GDT2 (t p r0 xmg xfe : ℝ) : ℝ :=
  0

/-- `D2GDTDP`, perovskite.c 96. -/
def D2GDTDP (t p r0 xmg xfe : ℝ) : ℝ :=
  0

/-- `D2GDP2`, perovskite.c 97. -/
def D2GDP2 (t p r0 xmg xfe : ℝ) : ℝ :=
  0

/-- `D3GDR0R0R0`, perovskite.c 99. -/
def D3GDR0R0R0 (t p r0 xmg xfe : ℝ) : ℝ :=
  R * t * (1 / xfe ^ 2 - 1 / xmg ^ 2) + 6 * (WG122 t p r0 xmg xfe) - 6 * (WG112 t p r0 xmg xfe)

/-- `D3GDR0R0DT`, perovskite.c 100. -/
def D3GDR0R0DT (t p r0 xmg xfe : ℝ) : ℝ :=
  R * (1 / xmg + 1 / xfe) - (2 * (xfe - xmg) * (WS112 - WS122) - 2 * WS112 * xmg - 2 * WS122 * xfe)

/-- `D3GDR0R0DP`, perovskite.c 101. -/
def D3GDR0R0DP (t p r0 xmg xfe : ℝ) : ℝ :=
  2 * (xfe - xmg) * (WV112 - WV122) - 2 * WV112 * xmg - 2 * WV122 * xfe

/-- `D3GDT3`, perovskite.c 102. -/
def D3GDT3 (t p r0 xmg xfe : ℝ) : ℝ :=
  0

/-- `D3GDT2DP`, perovskite.c 103. -/
def D3GDT2DP (t p r0 xmg xfe : ℝ) : ℝ :=
  0

/-- `D3GDTDP2`, perovskite.c 104. -/
def D3GDTDP2 (t p r0 xmg xfe : ℝ) : ℝ :=
  0

/-- `D3GDP3`, perovskite.c 105. -/
def D3GDP3 (t p r0 xmg xfe : ℝ) : ℝ :=
  0

/-- `D3GDR0DT2`, perovskite.c 107. -/
def D3GDR0DT2 (t p r0 xmg xfe : ℝ) : ℝ :=
  0

/-- `D3GDR0DTDP`, perovskite.c 108. -/
def D3GDR0DTDP (t p r0 xmg xfe : ℝ) : ℝ :=
  0

/-- `D3GDR0DP2`, perovskite.c 109. -/
def D3GDR0DP2 (t p r0 xmg xfe : ℝ) : ℝ :=
  0

/-- The macros as the functions of perovskite.c use them: `gmix`, `hmix`, `smix`, `cpmix`, `vmix` and `act`. -/
def F (x : Fin 2 → ℝ) : Mix 1 where
  g t p r := G t p (r 0) (x 0) (x 1)
  gr t p r := ![DGDR0 t p (r 0) (x 0) (x 1)]
  grr t p r := ![![D2GDR0R0 t p (r 0) (x 0) (x 1)]]
  grrr t p r := ![![![D3GDR0R0R0 t p (r 0) (x 0) (x 1)]]]
  h t p r := (G t p (r 0) (x 0) (x 1)) + t * (S t p (r 0) (x 0) (x 1))
  s t p r := S t p (r 0) (x 0) (x 1)
  sr t p r := ![-(D2GDR0DT t p (r 0) (x 0) (x 1))]
  srr t p r := ![![-(D3GDR0R0DT t p (r 0) (x 0) (x 1))]]
  cp t p r := -t * (D2GDT2 t p (r 0) (x 0) (x 1))
  cpt t p r := -t * (D3GDT3 t p (r 0) (x 0) (x 1)) - D2GDT2 t p (r 0) (x 0) (x 1)
  cpr t p r := ![-t * (D3GDR0DT2 t p (r 0) (x 0) (x 1))]
  v t p r := DGDP t p (r 0) (x 0) (x 1)
  vr t p r := ![D2GDR0DP t p (r 0) (x 0) (x 1)]
  vrr t p r := ![![D3GDR0R0DP t p (r 0) (x 0) (x 1)]]
  vt t p r := D2GDTDP t p (r 0) (x 0) (x 1)
  vp t p r := D2GDP2 t p (r 0) (x 0) (x 1)
  vtt t p r := D3GDT2DP t p (r 0) (x 0) (x 1)
  vtp t p r := D3GDTDP2 t p (r 0) (x 0) (x 1)
  vpp t p r := D3GDP3 t p (r 0) (x 0) (x 1)
  vrt t p r := ![D3GDR0DTDP t p (r 0) (x 0) (x 1)]
  vrp t p r := ![D3GDR0DP2 t p (r 0) (x 0) (x 1)]
  fx r := ![x 0]

/-- Site fractions before clamping, lines 362 363 439 440 480 481 493 494 566 567 of perovskite.c. -/
def raw (r : Fin 1 → ℝ) : Fin 2 → ℝ := ![r 0, 1 - r 0]

/-- The phase as coded in perovskite.c. -/
def mix : Mix 1 := ofSites F fun r k => clamp (raw r k)

theorem G_d0 (t p r0 : ℝ) (h0 : 0 < r0) (h1 : 0 < 1 - r0) :
    HasDerivAt (fun r0 => G t p r0 r0 (1 - r0)) (DGDR0 t p r0 r0 (1 - r0)) r0 := by
  have n0 := h0.ne'
  have n1 := h1.ne'
  simp only [H, S, V, G, WG112, WG122, DGDR0]
  refine HasDerivAt.congr_deriv (by hd) ?_
  all_goals first | ring1 | (field_simp; done) | (field_simp; ring1)

theorem G_diff (t p : ℝ) (r : Fin 1 → ℝ) (h0 : 0 < r 0) (h1 : 0 < 1 - r 0) :
    DifferentiableAt ℝ (fun r : Fin 1 → ℝ => G t p (r 0) (r 0) (1 - r 0)) r := by
  have n0 := h0.ne'
  have n1 := h1.ne'
  simp only [H, S, V, G]
  dd

theorem DGDR0_d0 (t p r0 : ℝ) (h0 : 0 < r0) (h1 : 0 < 1 - r0) :
    HasDerivAt (fun r0 => DGDR0 t p r0 r0 (1 - r0)) (D2GDR0R0 t p r0 r0 (1 - r0)) r0 := by
  have n0 := h0.ne'
  have n1 := h1.ne'
  simp only [WG112, WG122, DGDR0, D2GDR0R0]
  refine HasDerivAt.congr_deriv (by hd) ?_
  all_goals first | ring1 | (field_simp; done) | (field_simp; ring1)

theorem DGDR0_diff (t p : ℝ) (r : Fin 1 → ℝ) (h0 : 0 < r 0) (h1 : 0 < 1 - r 0) :
    DifferentiableAt ℝ (fun r : Fin 1 → ℝ => DGDR0 t p (r 0) (r 0) (1 - r 0)) r := by
  have n0 := h0.ne'
  have n1 := h1.ne'
  simp only [WG112, WG122, DGDR0]
  dd

theorem D2GDR0R0_d0 (t p r0 : ℝ) (h0 : 0 < r0) (h1 : 0 < 1 - r0) :
    HasDerivAt (fun r0 => D2GDR0R0 t p r0 r0 (1 - r0)) (D3GDR0R0R0 t p r0 r0 (1 - r0)) r0 := by
  have n0 := h0.ne'
  have n1 := h1.ne'
  simp only [WG112, WG122, D2GDR0R0, D3GDR0R0R0]
  refine HasDerivAt.congr_deriv (by hd) ?_
  all_goals first | ring1 | (field_simp; done) | (field_simp; ring1)

theorem D2GDR0R0_diff (t p : ℝ) (r : Fin 1 → ℝ) (h0 : 0 < r 0) (h1 : 0 < 1 - r 0) :
    DifferentiableAt ℝ (fun r : Fin 1 → ℝ => D2GDR0R0 t p (r 0) (r 0) (1 - r 0)) r := by
  have n0 := h0.ne'
  have n1 := h1.ne'
  simp only [WG112, WG122, D2GDR0R0]
  dd

theorem S_d0 (t p r0 : ℝ) (h0 : 0 < r0) (h1 : 0 < 1 - r0) :
    HasDerivAt (fun r0 => S t p r0 r0 (1 - r0)) (-(D2GDR0DT t p r0 r0 (1 - r0))) r0 := by
  have n0 := h0.ne'
  have n1 := h1.ne'
  simp only [S, D2GDR0DT]
  refine HasDerivAt.congr_deriv (by hd) ?_
  all_goals first | ring1 | (field_simp; done) | (field_simp; ring1)

theorem S_diff (t p : ℝ) (r : Fin 1 → ℝ) (h0 : 0 < r 0) (h1 : 0 < 1 - r 0) :
    DifferentiableAt ℝ (fun r : Fin 1 → ℝ => S t p (r 0) (r 0) (1 - r 0)) r := by
  have n0 := h0.ne'
  have n1 := h1.ne'
  simp only [S]
  dd

theorem D2GDR0DT_d0 (t p r0 : ℝ) (h0 : 0 < r0) (h1 : 0 < 1 - r0) :
    HasDerivAt (fun r0 => D2GDR0DT t p r0 r0 (1 - r0)) (D3GDR0R0DT t p r0 r0 (1 - r0)) r0 := by
  have n0 := h0.ne'
  have n1 := h1.ne'
  simp only [D2GDR0DT, D3GDR0R0DT]
  refine HasDerivAt.congr_deriv (by hd) ?_
  all_goals first | ring1 | (field_simp; done) | (field_simp; ring1)

theorem D2GDR0DT_diff (t p : ℝ) (r : Fin 1 → ℝ) (h0 : 0 < r 0) (h1 : 0 < 1 - r 0) :
    DifferentiableAt ℝ (fun r : Fin 1 → ℝ => D2GDR0DT t p (r 0) (r 0) (1 - r 0)) r := by
  have n0 := h0.ne'
  have n1 := h1.ne'
  simp only [D2GDR0DT]
  dd

theorem DGDP_d0 (t p r0 : ℝ) (h0 : 0 < r0) (h1 : 0 < 1 - r0) :
    HasDerivAt (fun r0 => DGDP t p r0 r0 (1 - r0)) (D2GDR0DP t p r0 r0 (1 - r0)) r0 := by
  have n0 := h0.ne'
  have n1 := h1.ne'
  simp only [V, DGDP, D2GDR0DP]
  refine HasDerivAt.congr_deriv (by hd) ?_
  all_goals first | ring1 | (field_simp; done) | (field_simp; ring1)

theorem DGDP_diff (t p : ℝ) (r : Fin 1 → ℝ) (h0 : 0 < r 0) (h1 : 0 < 1 - r 0) :
    DifferentiableAt ℝ (fun r : Fin 1 → ℝ => DGDP t p (r 0) (r 0) (1 - r 0)) r := by
  have n0 := h0.ne'
  have n1 := h1.ne'
  simp only [V, DGDP]
  dd

theorem D2GDR0DP_d0 (t p r0 : ℝ) (h0 : 0 < r0) (h1 : 0 < 1 - r0) :
    HasDerivAt (fun r0 => D2GDR0DP t p r0 r0 (1 - r0)) (D3GDR0R0DP t p r0 r0 (1 - r0)) r0 := by
  have n0 := h0.ne'
  have n1 := h1.ne'
  simp only [D2GDR0DP, D3GDR0R0DP]
  refine HasDerivAt.congr_deriv (by hd) ?_
  all_goals first | ring1 | (field_simp; done) | (field_simp; ring1)

theorem D2GDR0DP_diff (t p : ℝ) (r : Fin 1 → ℝ) (h0 : 0 < r 0) (h1 : 0 < 1 - r 0) :
    DifferentiableAt ℝ (fun r : Fin 1 → ℝ => D2GDR0DP t p (r 0) (r 0) (1 - r 0)) r := by
  have n0 := h0.ne'
  have n1 := h1.ne'
  simp only [D2GDR0DP]
  dd

set_option maxHeartbeats 1600000 in
theorem consistent_raw : (ofSites F raw).Consistent (Interior raw) := by
  have posr : ∀ r, Interior raw r → ∀ k, 0 < raw r k := fun r hr k => lt_trans eps_pos (hr k)
  constructor
  · intro t p r hr
    have pos := posr r hr
    refine grad_of_partials (G_diff t p r (pos 0) (pos 1)) fun j => partial_of_update ?_
    fin_cases j
    · exact (G_d0 t p (r 0) (pos 0) (pos 1))
  · intro t p r hr i
    have pos := posr r hr
    fin_cases i
    · skip
      refine grad_of_partials (DGDR0_diff t p r (pos 0) (pos 1)) fun j => partial_of_update ?_
      fin_cases j
      · exact (DGDR0_d0 t p (r 0) (pos 0) (pos 1))
  · intro t p r hr i j
    have pos := posr r hr
    fin_cases i <;> fin_cases j
    · skip
      refine grad_of_partials (D2GDR0R0_diff t p r (pos 0) (pos 1)) fun j => partial_of_update ?_
      fin_cases j
      · exact (D2GDR0R0_d0 t p (r 0) (pos 0) (pos 1))
  · intro t p r hr
    simp only [ofSites, F, H, S, V, G]
    refine HasDerivAt.congr_deriv (by hd) ?_
    ring
  · intro t p r hr; rfl
  · intro t p r hr
    have pos := posr r hr
    refine grad_of_partials (S_diff t p r (pos 0) (pos 1)) fun j => partial_of_update ?_
    fin_cases j
    · exact S_d0 t p (r 0) (pos 0) (pos 1)
  · intro t p r hr i
    have pos := posr r hr
    fin_cases i
    · skip
      refine grad_of_partials ((D2GDR0DT_diff t p r (pos 0) (pos 1)).fun_neg) fun j => partial_of_update ?_
      fin_cases j
      · exact ((D2GDR0DT_d0 t p (r 0) (pos 0) (pos 1))).fun_neg
  · intro t p r hr
    simp only [ofSites, F, H, S, V, G, D2GDT2]
    refine HasDerivAt.congr_deriv (by hd) ?_
    ring
  · intro t p r hr
    simp only [ofSites, F, D2GDT2, D3GDT3]
    refine HasDerivAt.congr_deriv (by hd) ?_
    ring
  · intro t p r hr
    refine grad_of_partials ?_ fun j => partial_of_update ?_
    · simp only [ofSites, F, D2GDT2]; dd
    · fin_cases j
      · change HasDerivAt (fun _ : ℝ => -t * (0 : ℝ)) (-t * (0 : ℝ)) _
        exact (hasDerivAt_const _ _).congr_deriv (by ring)
  · intro t p r hr
    simp only [ofSites, F, H, S, V, G, DGDP]
    refine HasDerivAt.congr_deriv (by hd) ?_
    ring
  · intro t p r hr
    have pos := posr r hr
    refine grad_of_partials (DGDP_diff t p r (pos 0) (pos 1)) fun j => partial_of_update ?_
    fin_cases j
    · exact (DGDP_d0 t p (r 0) (pos 0) (pos 1))
  · intro t p r hr i
    have pos := posr r hr
    fin_cases i
    · skip
      refine grad_of_partials (D2GDR0DP_diff t p r (pos 0) (pos 1)) fun j => partial_of_update ?_
      fin_cases j
      · exact (D2GDR0DP_d0 t p (r 0) (pos 0) (pos 1))
  · intro t p r hr
    simp only [ofSites, F, V, DGDP, D2GDTDP]
    refine HasDerivAt.congr_deriv (by hd) ?_
    ring
  · intro t p r hr
    simp only [ofSites, F, V, DGDP, D2GDP2]
    refine HasDerivAt.congr_deriv (by hd) ?_
    ring
  · intro t p r hr
    simp only [ofSites, F, D2GDTDP, D3GDT2DP]
    refine HasDerivAt.congr_deriv (by hd) ?_
    ring
  · intro t p r hr
    simp only [ofSites, F, D2GDTDP, D3GDTDP2]
    refine HasDerivAt.congr_deriv (by hd) ?_
    ring
  · intro t p r hr
    simp only [ofSites, F, D2GDP2, D3GDP3]
    refine HasDerivAt.congr_deriv (by hd) ?_
    ring
  · intro t p r hr i
    fin_cases i
    · change HasDerivAt (fun t => D2GDR0DP t p (r 0) (raw r 0) (raw r 1)) (D3GDR0DTDP t p (r 0) (raw r 0) (raw r 1)) t
      simp only [D2GDR0DP, D3GDR0DTDP]
      refine HasDerivAt.congr_deriv (by hd) ?_
      ring
  · intro t p r hr i
    fin_cases i
    · change HasDerivAt (fun p => D2GDR0DP t p (r 0) (raw r 0) (raw r 1)) (D3GDR0DP2 t p (r 0) (raw r 0) (raw r 1)) p
      simp only [D2GDR0DP, D3GDR0DP2]
      refine HasDerivAt.congr_deriv (by hd) ?_
      ring
  · intro t p r hr i
    fin_cases i
    · change HasDerivAt (fun t => DGDR0 t p (r 0) (raw r 0) (raw r 1)) (-(-(D2GDR0DT t p (r 0) (raw r 0) (raw r 1)))) t
      simp only [WG112, WG122, DGDR0, D2GDR0DT]
      refine HasDerivAt.congr_deriv (by hd) ?_
      ring
  · intro t p r hr i
    fin_cases i
    · change HasDerivAt (fun p => DGDR0 t p (r 0) (raw r 0) (raw r 1)) (D2GDR0DP t p (r 0) (raw r 0) (raw r 1)) p
      simp only [WG112, WG122, DGDR0, D2GDR0DP]
      refine HasDerivAt.congr_deriv (by hd) ?_
      ring
  · intro t p r hr h0 i
    fin_cases i
    · change HasDerivAt (fun t => -(D2GDR0DT t p (r 0) (raw r 0) (raw r 1))) (-t * (D3GDR0DT2 t p (r 0) (raw r 0) (raw r 1)) / t) t
      simp only [D2GDR0DT, D3GDR0DT2]
      refine HasDerivAt.congr_deriv (by hd) ?_
      first | ring | (field_simp; ring)
  · intro t p r hr
    refine grad_of_partials ?_ fun j => partial_of_update ?_
    · simp only [ofSites, F, D2GDP2]; dd
    · fin_cases j
      · change HasDerivAt (fun _ : ℝ => (0 : ℝ)) (0 : ℝ) _
        exact hasDerivAt_const _ _
  · intro t p r hr i j; fin_cases i <;> fin_cases j <;> rfl
  · intro t p r hr i j k; fin_cases i <;> fin_cases j <;> fin_cases k <;> exact ⟨rfl, rfl⟩
  · intro r hr; funext i; fin_cases i <;> rfl

theorem raw_continuous (k : Fin 2) : Continuous fun r => raw r k := by
  fin_cases k
  · change Continuous fun r : Fin 1 → ℝ => r 0
    fun_prop
  · change Continuous fun r : Fin 1 → ℝ => 1 - r 0
    fun_prop

theorem consistent : mix.Consistent (Interior raw) := consistent_clamp F raw raw_continuous consistent_raw

/-- The dependent end member of perovskite.c. -/
def dep : Fin 2 := 1

end Perovskite

/-- **C24.** Perovskite (perovskite.c): derivatives, entropy, enthalpy, heat capacity and volume of mixing fit together. -/
theorem C24_perovskite : Perovskite.mix.Consistent (Interior Perovskite.raw) := Perovskite.consistent

/-- The interior contains the composition 1 / 4. -/
example : Interior Perovskite.raw ![1 / 4] := by
  intro k
  fin_cases k
  · change ((1 / 4) : ℝ) > eps; unfold eps; norm_num
  · change (1 - (1 / 4) : ℝ) > eps; unfold eps; norm_num

/-- **C24.** The chemical potentials `act*` returns are the derivatives of the total Gibbs energy of mixing. -/
theorem C24_perovskite_potentials (t p : ℝ) (m : Fin 2 → ℝ) (h0 : ∑ i, m i ≠ 0)
    (hr : Interior Perovskite.raw (toR Perovskite.dep m)) (i : Fin 2) :
    Partial (fun m => (∑ i, m i) * Perovskite.mix.g t p (toR Perovskite.dep m)) m i
      (mu Perovskite.mix Perovskite.dep t p (toR Perovskite.dep m) i) :=
  C24_potential_is_derivative _ _ Perovskite.consistent _ t p m h0 hr i

/-- **C24.** The derivatives of the activities `act*` returns are their derivatives. -/
theorem C24_perovskite_activities (t p : ℝ) (r : Fin 1 → ℝ) (hr : Interior Perovskite.raw r) (i : Fin 2)
    (k : Fin 1) : Partial (fun r => act Perovskite.mix Perovskite.dep t p r i) r k (dact Perovskite.mix Perovskite.dep t p r i k) :=
  C24_activity_derivative _ _ Perovskite.consistent (isOpen_interior _ Perovskite.raw_continuous) _ t p r hr i k

namespace Ringwoodite

/-- `WH112`, ringwoodite.c 60. -/
def WH112 : ℝ := 3900

/-- `WS112`, ringwoodite.c 61. -/
def WS112 : ℝ := (11 / 10)

/-- `WV112`, ringwoodite.c 62. -/
def WV112 : ℝ := 0

/-- `WH122`, ringwoodite.c 63. -/
def WH122 : ℝ := 3900

/-- `WS122`, ringwoodite.c 64. -/
def WS122 : ℝ := 0

/-- `WV122`, ringwoodite.c 65. -/
def WV122 : ℝ := 0

/-- `WG112`, ringwoodite.c 67. -/
def WG112 (t p r0 xmg xfe : ℝ) : ℝ :=
  WH112 - t * WS112 + p * WV112

/-- `WG122`, ringwoodite.c 68. -/
def WG122 (t p r0 xmg xfe : ℝ) : ℝ :=
  WH122 - t * WS122 + p * WV122

/-- `S`, ringwoodite.c 84. -/
def S (t p r0 xmg xfe : ℝ) : ℝ :=
  (-R) * (xmg * Real.log xmg + xfe * Real.log xfe) + WS112 * xmg * xfe * xmg + WS122 * xmg * xfe * xfe

/-- `H`, ringwoodite.c 85. -/
def H (t p r0 xmg xfe : ℝ) : ℝ :=
  WH112 * xmg * xfe * xmg + WH122 * xmg * xfe * xfe

/-- `V`, ringwoodite.c 86. -/
def V (t p r0 xmg xfe : ℝ) : ℝ :=
  WV112 * xmg * xfe * xmg + WV122 * xmg * xfe * xfe

/-- `G`, ringwoodite.c 87. -/
def G (t p r0 xmg xfe : ℝ) : ℝ :=
  (H t p r0 xmg xfe) - t * (S t p r0 xmg xfe) + p * (V t p r0 xmg xfe)

/-- `DGDR0`, ringwoodite.c 89. -/
def DGDR0 (t p r0 xmg xfe : ℝ) : ℝ :=
  R * t * (Real.log xmg - Real.log xfe) + (WG112 t p r0 xmg xfe) * (xmg * xfe + (xfe - xmg) * xmg) + (WG122 t
    p r0 xmg xfe) * ((-xmg) * xfe + (xfe - xmg) * xfe)

/-- `DGDP`, ringwoodite.c 90. -/
def DGDP (t p r0 xmg xfe : ℝ) : ℝ :=
  (V t p r0 xmg xfe)

/-- `D2GDR0R0`, ringwoodite.c 92. -/
def D2GDR0R0 (t p r0 xmg xfe : ℝ) : ℝ :=
  R * t * (1 / xmg + 1 / xfe) + 2 * (xfe - xmg) * ((WG112 t p r0 xmg xfe) - (WG122 t p r0 xmg xfe)) - 2 *
    (WG112 t p r0 xmg xfe) * xmg - 2 * (WG122 t p r0 xmg xfe) * xfe

/-- `D2GDR0DT`, ringwoodite.c 93. -/
def D2GDR0DT (t p r0 xmg xfe : ℝ) : ℝ :=
  R * (Real.log xmg - Real.log xfe) - (WS112 * (xmg * xfe + (xfe - xmg) * xmg) + WS122 * ((-xmg) * xfe + (xfe
    - xmg) * xfe))

/-- `D2GDR0DP`, ringwoodite.c 94. -/
def D2GDR0DP (t p r0 xmg xfe : ℝ) : ℝ :=
  WV112 * (xmg * xfe + (xfe - xmg) * xmg) + WV122 * ((-xmg) * xfe + (xfe - xmg) * xfe)

/-- `D2GDT2`, ringwoodite.c 95. -/
def D2GDT2 (t p r0 xmg xfe : ℝ) : ℝ :=
  0

/-- `D2GDTDP`, ringwoodite.c 96. -/
def D2GDTDP (t p r0 xmg xfe : ℝ) : ℝ :=
  0

/-- `D2GDP2`, ringwoodite.c 97. -/
def D2GDP2 (t p r0 xmg xfe : ℝ) : ℝ :=
  0

/-- `D3GDR0R0R0`, ringwoodite.c 99. -/
def D3GDR0R0R0 (t p r0 xmg xfe : ℝ) : ℝ :=
  R * t * (1 / xfe ^ 2 - 1 / xmg ^ 2) + 6 * (WG122 t p r0 xmg xfe) - 6 * (WG112 t p r0 xmg xfe)

/-- `D3GDR0R0DT`, ringwoodite.c 100. -/
def D3GDR0R0DT (t p r0 xmg xfe : ℝ) : ℝ :=
  R * (1 / xmg + 1 / xfe) - (2 * (xfe - xmg) * (WS112 - WS122) - 2 * WS112 * xmg - 2 * WS122 * xfe)

/-- `D3GDR0R0DP`, ringwoodite.c 101. -/
def D3GDR0R0DP (t p r0 xmg xfe : ℝ) : ℝ :=
  2 * (xfe - xmg) * (WV112 - WV122) - 2 * WV112 * xmg - 2 * WV122 * xfe

/-- `D3GDT3`, ringwoodite.c 102. -/
def D3GDT3 (t p r0 xmg xfe : ℝ) : ℝ :=
  0

/-- `D3GDT2DP`, ringwoodite.c 103. -/
def D3GDT2DP (t p r0 xmg xfe : ℝ) : ℝ :=
  0

/-- `D3GDTDP2`, ringwoodite.c 104. -/
def D3GDTDP2 (t p r0 xmg xfe : ℝ) : ℝ :=
  0

/-- `D3GDP3`, ringwoodite.c 105. -/
def D3GDP3 (t p r0 xmg xfe : ℝ) : ℝ :=
  0

/-- `D3GDR0DT2`, ringwoodite.c 107. -/
def D3GDR0DT2 (t p r0 xmg xfe : ℝ) : ℝ :=
  0

/-- `D3GDR0DTDP`, ringwoodite.c 108. -/
def D3GDR0DTDP (t p r0 xmg xfe : ℝ) : ℝ :=
  0

/-- `D3GDR0DP2`, ringwoodite.c 109. -/
def D3GDR0DP2 (t p r0 xmg xfe : ℝ) : ℝ :=
  0

/-- The macros as the functions of ringwoodite.c use them: `gmix`, `hmix`, `smix`, `cpmix`, `vmix` and `act`. -/
def F (x : Fin 2 → ℝ) : Mix 1 where
  g t p r := G t p (r 0) (x 0) (x 1)
  gr t p r := ![DGDR0 t p (r 0) (x 0) (x 1)]
  grr t p r := ![![D2GDR0R0 t p (r 0) (x 0) (x 1)]]
  grrr t p r := ![![![D3GDR0R0R0 t p (r 0) (x 0) (x 1)]]]
  h t p r := (G t p (r 0) (x 0) (x 1)) + t * (S t p (r 0) (x 0) (x 1))
  s t p r := S t p (r 0) (x 0) (x 1)
  sr t p r := ![-(D2GDR0DT t p (r 0) (x 0) (x 1))]
  srr t p r := ![![-(D3GDR0R0DT t p (r 0) (x 0) (x 1))]]
  cp t p r := -t * (D2GDT2 t p (r 0) (x 0) (x 1))
  cpt t p r := -t * (D3GDT3 t p (r 0) (x 0) (x 1)) - D2GDT2 t p (r 0) (x 0) (x 1)
  cpr t p r := ![-t * (D3GDR0DT2 t p (r 0) (x 0) (x 1))]
  v t p r := DGDP t p (r 0) (x 0) (x 1)
  vr t p r := ![D2GDR0DP t p (r 0) (x 0) (x 1)]
  vrr t p r := ![![D3GDR0R0DP t p (r 0) (x 0) (x 1)]]
  vt t p r := D2GDTDP t p (r 0) (x 0) (x 1)
  vp t p r := D2GDP2 t p (r 0) (x 0) (x 1)
  vtt t p r := D3GDT2DP t p (r 0) (x 0) (x 1)
  vtp t p r := D3GDTDP2 t p (r 0) (x 0) (x 1)
  vpp t p r := D3GDP3 t p (r 0) (x 0) (x 1)
  vrt t p r := ![D3GDR0DTDP t p (r 0) (x 0) (x 1)]
  vrp t p r := ![D3GDR0DP2 t p (r 0) (x 0) (x 1)]
  fx r := ![x 0]

/-- Site fractions before clamping, lines 362 363 439 440 480 481 493 494 566 567 of ringwoodite.c. -/
def raw (r : Fin 1 → ℝ) : Fin 2 → ℝ := ![r 0, 1 - r 0]

/-- The phase as coded in ringwoodite.c. -/
def mix : Mix 1 := ofSites F fun r k => clamp (raw r k)

theorem G_d0 (t p r0 : ℝ) (h0 : 0 < r0) (h1 : 0 < 1 - r0) :
    HasDerivAt (fun r0 => G t p r0 r0 (1 - r0)) (DGDR0 t p r0 r0 (1 - r0)) r0 := by
  have n0 := h0.ne'
  have n1 := h1.ne'
  simp only [H, S, V, G, WG112, WG122, DGDR0]
  refine HasDerivAt.congr_deriv (by hd) ?_
  all_goals first | ring1 | (field_simp; done) | (field_simp; ring1)

theorem G_diff (t p : ℝ) (r : Fin 1 → ℝ) (h0 : 0 < r 0) (h1 : 0 < 1 - r 0) :
    DifferentiableAt ℝ (fun r : Fin 1 → ℝ => G t p (r 0) (r 0) (1 - r 0)) r := by
  have n0 := h0.ne'
  have n1 := h1.ne'
  simp only [H, S, V, G]
  dd

theorem DGDR0_d0 (t p r0 : ℝ) (h0 : 0 < r0) (h1 : 0 < 1 - r0) :
    HasDerivAt (fun r0 => DGDR0 t p r0 r0 (1 - r0)) (D2GDR0R0 t p r0 r0 (1 - r0)) r0 := by
  have n0 := h0.ne'
  have n1 := h1.ne'
  simp only [WG112, WG122, DGDR0, D2GDR0R0]
  refine HasDerivAt.congr_deriv (by hd) ?_
  all_goals first | ring1 | (field_simp; done) | (field_simp; ring1)

theorem DGDR0_diff (t p : ℝ) (r : Fin 1 → ℝ) (h0 : 0 < r 0) (h1 : 0 < 1 - r 0) :
    DifferentiableAt ℝ (fun r : Fin 1 → ℝ => DGDR0 t p (r 0) (r 0) (1 - r 0)) r := by
  have n0 := h0.ne'
  have n1 := h1.ne'
  simp only [WG112, WG122, DGDR0]
  dd

theorem D2GDR0R0_d0 (t p r0 : ℝ) (h0 : 0 < r0) (h1 : 0 < 1 - r0) :
    HasDerivAt (fun r0 => D2GDR0R0 t p r0 r0 (1 - r0)) (D3GDR0R0R0 t p r0 r0 (1 - r0)) r0 := by
  have n0 := h0.ne'
  have n1 := h1.ne'
  simp only [WG112, WG122, D2GDR0R0, D3GDR0R0R0]
  refine HasDerivAt.congr_deriv (by hd) ?_
  all_goals first | ring1 | (field_simp; done) | (field_simp; ring1)

theorem D2GDR0R0_diff (t p : ℝ) (r : Fin 1 → ℝ) (h0 : 0 < r 0) (h1 : 0 < 1 - r 0) :
    DifferentiableAt ℝ (fun r : Fin 1 → ℝ => D2GDR0R0 t p (r 0) (r 0) (1 - r 0)) r := by
  have n0 := h0.ne'
  have n1 := h1.ne'
  simp only [WG112, WG122, D2GDR0R0]
  dd

theorem S_d0 (t p r0 : ℝ) (h0 : 0 < r0) (h1 : 0 < 1 - r0) :
    HasDerivAt (fun r0 => S t p r0 r0 (1 - r0)) (-(D2GDR0DT t p r0 r0 (1 - r0))) r0 := by
  have n0 := h0.ne'
  have n1 := h1.ne'
  simp only [S, D2GDR0DT]
  refine HasDerivAt.congr_deriv (by hd) ?_
  all_goals first | ring1 | (field_simp; done) | (field_simp; ring1)

theorem S_diff (t p : ℝ) (r : Fin 1 → ℝ) (h0 : 0 < r 0) (h1 : 0 < 1 - r 0) :
    DifferentiableAt ℝ (fun r : Fin 1 → ℝ => S t p (r 0) (r 0) (1 - r 0)) r := by
  have n0 := h0.ne'
  have n1 := h1.ne'
  simp only [S]
  dd

theorem D2GDR0DT_d0 (t p r0 : ℝ) (h0 : 0 < r0) (h1 : 0 < 1 - r0) :
    HasDerivAt (fun r0 => D2GDR0DT t p r0 r0 (1 - r0)) (D3GDR0R0DT t p r0 r0 (1 - r0)) r0 := by
  have n0 := h0.ne'
  have n1 := h1.ne'
  simp only [D2GDR0DT, D3GDR0R0DT]
  refine HasDerivAt.congr_deriv (by hd) ?_
  all_goals first | ring1 | (field_simp; done) | (field_simp; ring1)

theorem D2GDR0DT_diff (t p : ℝ) (r : Fin 1 → ℝ) (h0 : 0 < r 0) (h1 : 0 < 1 - r 0) :
    DifferentiableAt ℝ (fun r : Fin 1 → ℝ => D2GDR0DT t p (r 0) (r 0) (1 - r 0)) r := by
  have n0 := h0.ne'
  have n1 := h1.ne'
  simp only [D2GDR0DT]
  dd

theorem DGDP_d0 (t p r0 : ℝ) (h0 : 0 < r0) (h1 : 0 < 1 - r0) :
    HasDerivAt (fun r0 => DGDP t p r0 r0 (1 - r0)) (D2GDR0DP t p r0 r0 (1 - r0)) r0 := by
  have n0 := h0.ne'
  have n1 := h1.ne'
  simp only [V, DGDP, D2GDR0DP]
  refine HasDerivAt.congr_deriv (by hd) ?_
  all_goals first | ring1 | (field_simp; done) | (field_simp; ring1)

theorem DGDP_diff (t p : ℝ) (r : Fin 1 → ℝ) (h0 : 0 < r 0) (h1 : 0 < 1 - r 0) :
    DifferentiableAt ℝ (fun r : Fin 1 → ℝ => DGDP t p (r 0) (r 0) (1 - r 0)) r := by
  have n0 := h0.ne'
  have n1 := h1.ne'
  simp only [V, DGDP]
  dd

theorem D2GDR0DP_d0 (t p r0 : ℝ) (h0 : 0 < r0) (h1 : 0 < 1 - r0) :
    HasDerivAt (fun r0 => D2GDR0DP t p r0 r0 (1 - r0)) (D3GDR0R0DP t p r0 r0 (1 - r0)) r0 := by
  have n0 := h0.ne'
  have n1 := h1.ne'
  simp only [D2GDR0DP, D3GDR0R0DP]
  refine HasDerivAt.congr_deriv (by hd) ?_
  all_goals first | ring1 | (field_simp; done) | (field_simp; ring1)

theorem D2GDR0DP_diff (t p : ℝ) (r : Fin 1 → ℝ) (h0 : 0 < r 0) (h1 : 0 < 1 - r 0) :
    DifferentiableAt ℝ (fun r : Fin 1 → ℝ => D2GDR0DP t p (r 0) (r 0) (1 - r 0)) r := by
  have n0 := h0.ne'
  have n1 := h1.ne'
  simp only [D2GDR0DP]
  dd

set_option maxHeartbeats 1600000 in
theorem consistent_raw : (ofSites F raw).Consistent (Interior raw) := by
  have posr : ∀ r, Interior raw r → ∀ k, 0 < raw r k := fun r hr k => lt_trans eps_pos (hr k)
  constructor
  · intro t p r hr
    have pos := posr r hr
    refine grad_of_partials (G_diff t p r (pos 0) (pos 1)) fun j => partial_of_update ?_
    fin_cases j
    · exact (G_d0 t p (r 0) (pos 0) (pos 1))
  · intro t p r hr i
    have pos := posr r hr
    fin_cases i
    · skip
      refine grad_of_partials (DGDR0_diff t p r (pos 0) (pos 1)) fun j => partial_of_update ?_
      fin_cases j
      · exact (DGDR0_d0 t p (r 0) (pos 0) (pos 1))
  · intro t p r hr i j
    have pos := posr r hr
    fin_cases i <;> fin_cases j
    · skip
      refine grad_of_partials (D2GDR0R0_diff t p r (pos 0) (pos 1)) fun j => partial_of_update ?_
      fin_cases j
      · exact (D2GDR0R0_d0 t p (r 0) (pos 0) (pos 1))
  · intro t p r hr
    simp only [ofSites, F, H, S, V, G]
    refine HasDerivAt.congr_deriv (by hd) ?_
    ring
  · intro t p r hr; rfl
  · intro t p r hr
    have pos := posr r hr
    refine grad_of_partials (S_diff t p r (pos 0) (pos 1)) fun j => partial_of_update ?_
    fin_cases j
    · exact S_d0 t p (r 0) (pos 0) (pos 1)
  · intro t p r hr i
    have pos := posr r hr
    fin_cases i
    · skip
      refine grad_of_partials ((D2GDR0DT_diff t p r (pos 0) (pos 1)).fun_neg) fun j => partial_of_update ?_
      fin_cases j
      · exact ((D2GDR0DT_d0 t p (r 0) (pos 0) (pos 1))).fun_neg
  · intro t p r hr
    simp only [ofSites, F, H, S, V, G, D2GDT2]
    refine HasDerivAt.congr_deriv (by hd) ?_
    ring
  · intro t p r hr
    simp only [ofSites, F, D2GDT2, D3GDT3]
    refine HasDerivAt.congr_deriv (by hd) ?_
    ring
  · intro t p r hr
    refine grad_of_partials ?_ fun j => partial_of_update ?_
    · simp only [ofSites, F, D2GDT2]; dd
    · fin_cases j
      · change HasDerivAt (fun _ : ℝ => -t * (0 : ℝ)) (-t * (0 : ℝ)) _
        exact (hasDerivAt_const _ _).congr_deriv (by ring)
  · intro t p r hr
    simp only [ofSites, F, H, S, V, G, DGDP]
    refine HasDerivAt.congr_deriv (by hd) ?_
    ring
  · intro t p r hr
    have pos := posr r hr
    refine grad_of_partials (DGDP_diff t p r (pos 0) (pos 1)) fun j => partial_of_update ?_
    fin_cases j
    · exact (DGDP_d0 t p (r 0) (pos 0) (pos 1))
  · intro t p r hr i
    have pos := posr r hr
    fin_cases i
    · skip
      refine grad_of_partials (D2GDR0DP_diff t p r (pos 0) (pos 1)) fun j => partial_of_update ?_
      fin_cases j
      · exact (D2GDR0DP_d0 t p (r 0) (pos 0) (pos 1))
  · intro t p r hr
    simp only [ofSites, F, V, DGDP, D2GDTDP]
    refine HasDerivAt.congr_deriv (by hd) ?_
    ring
  · intro t p r hr
    simp only [ofSites, F, V, DGDP, D2GDP2]
    refine HasDerivAt.congr_deriv (by hd) ?_
    ring
  · intro t p r hr
    simp only [ofSites, F, D2GDTDP, D3GDT2DP]
    refine HasDerivAt.congr_deriv (by hd) ?_
    ring
  · intro t p r hr
    simp only [ofSites, F, D2GDTDP, D3GDTDP2]
    refine HasDerivAt.congr_deriv (by hd) ?_
    ring
  · intro t p r hr
    simp only [ofSites, F, D2GDP2, D3GDP3]
    refine HasDerivAt.congr_deriv (by hd) ?_
    ring
  · intro t p r hr i
    fin_cases i
    · change HasDerivAt (fun t => D2GDR0DP t p (r 0) (raw r 0) (raw r 1)) (D3GDR0DTDP t p (r 0) (raw r 0) (raw r 1)) t
      simp only [D2GDR0DP, D3GDR0DTDP]
      refine HasDerivAt.congr_deriv (by hd) ?_
      ring
  · intro t p r hr i
    fin_cases i
    · change HasDerivAt (fun p => D2GDR0DP t p (r 0) (raw r 0) (raw r 1)) (D3GDR0DP2 t p (r 0) (raw r 0) (raw r 1)) p
      simp only [D2GDR0DP, D3GDR0DP2]
      refine HasDerivAt.congr_deriv (by hd) ?_
      ring
  · intro t p r hr i
    fin_cases i
    · change HasDerivAt (fun t => DGDR0 t p (r 0) (raw r 0) (raw r 1)) (-(-(D2GDR0DT t p (r 0) (raw r 0) (raw r 1)))) t
      simp only [WG112, WG122, DGDR0, D2GDR0DT]
      refine HasDerivAt.congr_deriv (by hd) ?_
      ring
  · intro t p r hr i
    fin_cases i
    · change HasDerivAt (fun p => DGDR0 t p (r 0) (raw r 0) (raw r 1)) (D2GDR0DP t p (r 0) (raw r 0) (raw r 1)) p
      simp only [WG112, WG122, DGDR0, D2GDR0DP]
      refine HasDerivAt.congr_deriv (by hd) ?_
      ring
  · intro t p r hr h0 i
    fin_cases i
    · change HasDerivAt (fun t => -(D2GDR0DT t p (r 0) (raw r 0) (raw r 1))) (-t * (D3GDR0DT2 t p (r 0) (raw r 0) (raw r 1)) / t) t
      simp only [D2GDR0DT, D3GDR0DT2]
      refine HasDerivAt.congr_deriv (by hd) ?_
      first | ring | (field_simp; ring)
  · intro t p r hr
    refine grad_of_partials ?_ fun j => partial_of_update ?_
    · simp only [ofSites, F, D2GDP2]; dd
    · fin_cases j
      · change HasDerivAt (fun _ : ℝ => (0 : ℝ)) (0 : ℝ) _
        exact hasDerivAt_const _ _
  · intro t p r hr i j; fin_cases i <;> fin_cases j <;> rfl
  · intro t p r hr i j k; fin_cases i <;> fin_cases j <;> fin_cases k <;> exact ⟨rfl, rfl⟩
  · intro r hr; funext i; fin_cases i <;> rfl

theorem raw_continuous (k : Fin 2) : Continuous fun r => raw r k := by
  fin_cases k
  · change Continuous fun r : Fin 1 → ℝ => r 0
    fun_prop
  · change Continuous fun r : Fin 1 → ℝ => 1 - r 0
    fun_prop

theorem consistent : mix.Consistent (Interior raw) := consistent_clamp F raw raw_continuous consistent_raw

/-- The dependent end member of ringwoodite.c. -/
def dep : Fin 2 := 1

end Ringwoodite

/-- **C24.** Ringwoodite (ringwoodite.c): derivatives, entropy, enthalpy, heat capacity and volume of mixing fit together. -/
theorem C24_ringwoodite : Ringwoodite.mix.Consistent (Interior Ringwoodite.raw) := Ringwoodite.consistent

/-- The interior contains the composition 1 / 4. -/
example : Interior Ringwoodite.raw ![1 / 4] := by
  intro k
  fin_cases k
  · change ((1 / 4) : ℝ) > eps; unfold eps; norm_num
  · change (1 - (1 / 4) : ℝ) > eps; unfold eps; norm_num

/-- **C24.** The chemical potentials `act*` returns are the derivatives of the total Gibbs energy of mixing. -/
theorem C24_ringwoodite_potentials (t p : ℝ) (m : Fin 2 → ℝ) (h0 : ∑ i, m i ≠ 0)
    (hr : Interior Ringwoodite.raw (toR Ringwoodite.dep m)) (i : Fin 2) :
    Partial (fun m => (∑ i, m i) * Ringwoodite.mix.g t p (toR Ringwoodite.dep m)) m i
      (mu Ringwoodite.mix Ringwoodite.dep t p (toR Ringwoodite.dep m) i) :=
  C24_potential_is_derivative _ _ Ringwoodite.consistent _ t p m h0 hr i

/-- **C24.** The derivatives of the activities `act*` returns are their derivatives. -/
theorem C24_ringwoodite_activities (t p : ℝ) (r : Fin 1 → ℝ) (hr : Interior Ringwoodite.raw r) (i : Fin 2)
    (k : Fin 1) : Partial (fun r => act Ringwoodite.mix Ringwoodite.dep t p r i) r k (dact Ringwoodite.mix Ringwoodite.dep t p r i k) :=
  C24_activity_derivative _ _ Ringwoodite.consistent (isOpen_interior _ Ringwoodite.raw_continuous) _ t p r hr i k

namespace Wadsleyite

/-- `WH112`, wadsleyite.c 60. -/
def WH112 : ℝ := 1000

/-- `WS112`, wadsleyite.c 61. -/
def WS112 : ℝ := 0

/-- `WV112`, wadsleyite.c 62. -/
def WV112 : ℝ := 0

/-- `WH122`, wadsleyite.c 63. -/
def WH122 : ℝ := 2000

/-- `WS122`, wadsleyite.c 64. -/
def WS122 : ℝ := 0

/-- `WV122`, wadsleyite.c 65. -/
def WV122 : ℝ := 0

/-- `WG112`, wadsleyite.c 67. -/
def WG112 (t p r0 xmg xfe : ℝ) : ℝ :=
  WH112 - t * WS112 + p * WV112

/-- `WG122`, wadsleyite.c 68. -/
def WG122 (t p r0 xmg xfe : ℝ) : ℝ :=
  WH122 - t * WS122 + p * WV122

/-- `S`, wadsleyite.c 84. -/
def S (t p r0 xmg xfe : ℝ) : ℝ :=
  (-R) * (xmg * Real.log xmg + xfe * Real.log xfe) + WS112 * xmg * xfe * xmg + WS122 * xmg * xfe * xfe

/-- `H`, wadsleyite.c 85. -/
def H (t p r0 xmg xfe : ℝ) : ℝ :=
  WH112 * xmg * xfe * xmg + WH122 * xmg * xfe * xfe

/-- `V`, wadsleyite.c 86. -/
def V (t p r0 xmg xfe : ℝ) : ℝ :=
  WV112 * xmg * xfe * xmg + WV122 * xmg * xfe * xfe

/-- `G`, wadsleyite.c 87. -/
def G (t p r0 xmg xfe : ℝ) : ℝ :=
  (H t p r0 xmg xfe) - t * (S t p r0 xmg xfe) + p * (V t p r0 xmg xfe)

/-- `DGDR0`, wadsleyite.c 89. -/
def DGDR0 (t p r0 xmg xfe : ℝ) : ℝ :=
  R * t * (Real.log xmg - Real.log xfe) + (WG112 t p r0 xmg xfe) * (xmg * xfe + (xfe - xmg) * xmg) + (WG122 t
    p r0 xmg xfe) * ((-xmg) * xfe + (xfe - xmg) * xfe)

/-- `DGDP`, wadsleyite.c 90. -/
def DGDP (t p r0 xmg xfe : ℝ) : ℝ :=
  (V t p r0 xmg xfe)

/-- `D2GDR0R0`, wadsleyite.c 92. -/
def D2GDR0R0 (t p r0 xmg xfe : ℝ) : ℝ :=
  R * t * (1 / xmg + 1 / xfe) + 2 * (xfe - xmg) * ((WG112 t p r0 xmg xfe) - (WG122 t p r0 xmg xfe)) - 2 *
    (WG112 t p r0 xmg xfe) * xmg - 2 * (WG122 t p r0 xmg xfe) * xfe

/-- `D2GDR0DT`, wadsleyite.c 93. -/
def D2GDR0DT (t p r0 xmg xfe : ℝ) : ℝ :=
  R * (Real.log xmg - Real.log xfe) - (WS112 * (xmg * xfe + (xfe - xmg) * xmg) + WS122 * ((-xmg) * xfe + (xfe
    - xmg) * xfe))

/-- `D2GDR0DP`, wadsleyite.c 94. -/
def D2GDR0DP (t p r0 xmg xfe : ℝ) : ℝ :=
  WV112 * (xmg * xfe + (xfe - xmg) * xmg) + WV122 * ((-xmg) * xfe + (xfe - xmg) * xfe)

/-- `D2GDT2`, wadsleyite.c 95. -/
def D2GDT2 (t p r0 xmg xfe : ℝ) : ℝ :=
  0

/-- `D2GDTDP`, wadsleyite.c 96. -/
def D2GDTDP (t p r0 xmg xfe : ℝ) : ℝ :=
  0

/-- `D2GDP2`, wadsleyite.c 97. -/
def D2GDP2 (t p r0 xmg xfe : ℝ) : ℝ :=
  0

/-- `D3GDR0R0R0`, wadsleyite.c 99. -/
def D3GDR0R0R0 (t p r0 xmg xfe : ℝ) : ℝ :=
  R * t * (1 / xfe ^ 2 - 1 / xmg ^ 2) + 6 * (WG122 t p r0 xmg xfe) - 6 * (WG112 t p r0 xmg xfe)

/-- `D3GDR0R0DT`, wadsleyite.c 100. -/
def D3GDR0R0DT (t p r0 xmg xfe : ℝ) : ℝ :=
  R * (1 / xmg + 1 / xfe) - (2 * (xfe - xmg) * (WS112 - WS122) - 2 * WS112 * xmg - 2 * WS122 * xfe)

/-- `D3GDR0R0DP`, wadsleyite.c 101. -/
def D3GDR0R0DP (t p r0 xmg xfe : ℝ) : ℝ :=
  2 * (xfe - xmg) * (WV112 - WV122) - 2 * WV112 * xmg - 2 * WV122 * xfe

/-- `D3GDT3`, wadsleyite.c 102. -/
def D3GDT3 (t p r0 xmg xfe : ℝ) : ℝ :=
  0

/-- `D3GDT2DP`, wadsleyite.c 103. -/
def D3GDT2DP (t p r0 xmg xfe : ℝ) : ℝ :=
  0

/-- `D3GDTDP2`, wadsleyite.c 104. -/
def D3GDTDP2 (t p r0 xmg xfe : ℝ) : ℝ :=
  0

/-- `D3GDP3`, wadsleyite.c 105. -/
def D3GDP3 (t p r0 xmg xfe : ℝ) : ℝ :=
  0

/-- `D3GDR0DT2`, wadsleyite.c 107. -/
def D3GDR0DT2 (t p r0 xmg xfe : ℝ) : ℝ :=
  0

/-- `D3GDR0DTDP`, wadsleyite.c 108. -/
def D3GDR0DTDP (t p r0 xmg xfe : ℝ) : ℝ :=
  0

/-- `D3GDR0DP2`, wadsleyite.c 109. -/
def D3GDR0DP2 (t p r0 xmg xfe : ℝ) : ℝ :=
  0

/-- The macros as the functions of wadsleyite.c use them: `gmix`, `hmix`, `smix`, `cpmix`, `vmix` and `act`. -/
def F (x : Fin 2 → ℝ) : Mix 1 where
  g t p r := G t p (r 0) (x 0) (x 1)
  gr t p r := ![DGDR0 t p (r 0) (x 0) (x 1)]
  grr t p r := ![![D2GDR0R0 t p (r 0) (x 0) (x 1)]]
  grrr t p r := ![![![D3GDR0R0R0 t p (r 0) (x 0) (x 1)]]]
  h t p r := (G t p (r 0) (x 0) (x 1)) + t * (S t p (r 0) (x 0) (x 1))
  s t p r := S t p (r 0) (x 0) (x 1)
  sr t p r := ![-(D2GDR0DT t p (r 0) (x 0) (x 1))]
  srr t p r := ![![-(D3GDR0R0DT t p (r 0) (x 0) (x 1))]]
  cp t p r := -t * (D2GDT2 t p (r 0) (x 0) (x 1))
  cpt t p r := -t * (D3GDT3 t p (r 0) (x 0) (x 1)) - D2GDT2 t p (r 0) (x 0) (x 1)
  cpr t p r := ![-t * (D3GDR0DT2 t p (r 0) (x 0) (x 1))]
  v t p r := DGDP t p (r 0) (x 0) (x 1)
  vr t p r := ![D2GDR0DP t p (r 0) (x 0) (x 1)]
  vrr t p r := ![![D3GDR0R0DP t p (r 0) (x 0) (x 1)]]
  vt t p r := D2GDTDP t p (r 0) (x 0) (x 1)
  vp t p r := D2GDP2 t p (r 0) (x 0) (x 1)
  vtt t p r := D3GDT2DP t p (r 0) (x 0) (x 1)
  vtp t p r := D3GDTDP2 t p (r 0) (x 0) (x 1)
  vpp t p r := D3GDP3 t p (r 0) (x 0) (x 1)
  vrt t p r := ![D3GDR0DTDP t p (r 0) (x 0) (x 1)]
  vrp t p r := ![D3GDR0DP2 t p (r 0) (x 0) (x 1)]
  fx r := ![x 0]

/-- Site fractions before clamping, lines 362 363 439 440 480 481 493 494 566 567 of wadsleyite.c. -/
def raw (r : Fin 1 → ℝ) : Fin 2 → ℝ := ![r 0, 1 - r 0]

/-- The phase as coded in wadsleyite.c. -/
def mix : Mix 1 := ofSites F fun r k => clamp (raw r k)

theorem G_d0 (t p r0 : ℝ) (h0 : 0 < r0) (h1 : 0 < 1 - r0) :
    HasDerivAt (fun r0 => G t p r0 r0 (1 - r0)) (DGDR0 t p r0 r0 (1 - r0)) r0 := by
  have n0 := h0.ne'
  have n1 := h1.ne'
  simp only [H, S, V, G, WG112, WG122, DGDR0]
  refine HasDerivAt.congr_deriv (by hd) ?_
  all_goals first | ring1 | (field_simp; done) | (field_simp; ring1)

theorem G_diff (t p : ℝ) (r : Fin 1 → ℝ) (h0 : 0 < r 0) (h1 : 0 < 1 - r 0) :
    DifferentiableAt ℝ (fun r : Fin 1 → ℝ => G t p (r 0) (r 0) (1 - r 0)) r := by
  have n0 := h0.ne'
  have n1 := h1.ne'
  simp only [H, S, V, G]
  dd

theorem DGDR0_d0 (t p r0 : ℝ) (h0 : 0 < r0) (h1 : 0 < 1 - r0) :
    HasDerivAt (fun r0 => DGDR0 t p r0 r0 (1 - r0)) (D2GDR0R0 t p r0 r0 (1 - r0)) r0 := by
  have n0 := h0.ne'
  have n1 := h1.ne'
  simp only [WG112, WG122, DGDR0, D2GDR0R0]
  refine HasDerivAt.congr_deriv (by hd) ?_
  all_goals first | ring1 | (field_simp; done) | (field_simp; ring1)

theorem DGDR0_diff (t p : ℝ) (r : Fin 1 → ℝ) (h0 : 0 < r 0) (h1 : 0 < 1 - r 0) :
    DifferentiableAt ℝ (fun r : Fin 1 → ℝ => DGDR0 t p (r 0) (r 0) (1 - r 0)) r := by
  have n0 := h0.ne'
  have n1 := h1.ne'
  simp only [WG112, WG122, DGDR0]
  dd

theorem D2GDR0R0_d0 (t p r0 : ℝ) (h0 : 0 < r0) (h1 : 0 < 1 - r0) :
    HasDerivAt (fun r0 => D2GDR0R0 t p r0 r0 (1 - r0)) (D3GDR0R0R0 t p r0 r0 (1 - r0)) r0 := by
  have n0 := h0.ne'
  have n1 := h1.ne'
  simp only [WG112, WG122, D2GDR0R0, D3GDR0R0R0]
  refine HasDerivAt.congr_deriv (by hd) ?_
  all_goals first | ring1 | (field_simp; done) | (field_simp; ring1)

theorem D2GDR0R0_diff (t p : ℝ) (r : Fin 1 → ℝ) (h0 : 0 < r 0) (h1 : 0 < 1 - r 0) :
    DifferentiableAt ℝ (fun r : Fin 1 → ℝ => D2GDR0R0 t p (r 0) (r 0) (1 - r 0)) r := by
  have n0 := h0.ne'
  have n1 := h1.ne'
  simp only [WG112, WG122, D2GDR0R0]
  dd

theorem S_d0 (t p r0 : ℝ) (h0 : 0 < r0) (h1 : 0 < 1 - r0) :
    HasDerivAt (fun r0 => S t p r0 r0 (1 - r0)) (-(D2GDR0DT t p r0 r0 (1 - r0))) r0 := by
  have n0 := h0.ne'
  have n1 := h1.ne'
  simp only [S, D2GDR0DT]
  refine HasDerivAt.congr_deriv (by hd) ?_
  all_goals first | ring1 | (field_simp; done) | (field_simp; ring1)

theorem S_diff (t p : ℝ) (r : Fin 1 → ℝ) (h0 : 0 < r 0) (h1 : 0 < 1 - r 0) :
    DifferentiableAt ℝ (fun r : Fin 1 → ℝ => S t p (r 0) (r 0) (1 - r 0)) r := by
  have n0 := h0.ne'
  have n1 := h1.ne'
  simp only [S]
  dd

theorem D2GDR0DT_d0 (t p r0 : ℝ) (h0 : 0 < r0) (h1 : 0 < 1 - r0) :
    HasDerivAt (fun r0 => D2GDR0DT t p r0 r0 (1 - r0)) (D3GDR0R0DT t p r0 r0 (1 - r0)) r0 := by
  have n0 := h0.ne'
  have n1 := h1.ne'
  simp only [D2GDR0DT, D3GDR0R0DT]
  refine HasDerivAt.congr_deriv (by hd) ?_
  all_goals first | ring1 | (field_simp; done) | (field_simp; ring1)

theorem D2GDR0DT_diff (t p : ℝ) (r : Fin 1 → ℝ) (h0 : 0 < r 0) (h1 : 0 < 1 - r 0) :
    DifferentiableAt ℝ (fun r : Fin 1 → ℝ => D2GDR0DT t p (r 0) (r 0) (1 - r 0)) r := by
  have n0 := h0.ne'
  have n1 := h1.ne'
  simp only [D2GDR0DT]
  dd

theorem DGDP_d0 (t p r0 : ℝ) (h0 : 0 < r0) (h1 : 0 < 1 - r0) :
    HasDerivAt (fun r0 => DGDP t p r0 r0 (1 - r0)) (D2GDR0DP t p r0 r0 (1 - r0)) r0 := by
  have n0 := h0.ne'
  have n1 := h1.ne'
  simp only [V, DGDP, D2GDR0DP]
  refine HasDerivAt.congr_deriv (by hd) ?_
  all_goals first | ring1 | (field_simp; done) | (field_simp; ring1)

theorem DGDP_diff (t p : ℝ) (r : Fin 1 → ℝ) (h0 : 0 < r 0) (h1 : 0 < 1 - r 0) :
    DifferentiableAt ℝ (fun r : Fin 1 → ℝ => DGDP t p (r 0) (r 0) (1 - r 0)) r := by
  have n0 := h0.ne'
  have n1 := h1.ne'
  simp only [V, DGDP]
  dd

theorem D2GDR0DP_d0 (t p r0 : ℝ) (h0 : 0 < r0) (h1 : 0 < 1 - r0) :
    HasDerivAt (fun r0 => D2GDR0DP t p r0 r0 (1 - r0)) (D3GDR0R0DP t p r0 r0 (1 - r0)) r0 := by
  have n0 := h0.ne'
  have n1 := h1.ne'
  simp only [D2GDR0DP, D3GDR0R0DP]
  refine HasDerivAt.congr_deriv (by hd) ?_
  all_goals first | ring1 | (field_simp; done) | (field_simp; ring1)

theorem D2GDR0DP_diff (t p : ℝ) (r : Fin 1 → ℝ) (h0 : 0 < r 0) (h1 : 0 < 1 - r 0) :
    DifferentiableAt ℝ (fun r : Fin 1 → ℝ => D2GDR0DP t p (r 0) (r 0) (1 - r 0)) r := by
  have n0 := h0.ne'
  have n1 := h1.ne'
  simp only [D2GDR0DP]
  dd

set_option maxHeartbeats 1600000 in
theorem consistent_raw : (ofSites F raw).Consistent (Interior raw) := by
  have posr : ∀ r, Interior raw r → ∀ k, 0 < raw r k := fun r hr k => lt_trans eps_pos (hr k)
  constructor
  · intro t p r hr
    have pos := posr r hr
    refine grad_of_partials (G_diff t p r (pos 0) (pos 1)) fun j => partial_of_update ?_
    fin_cases j
    · exact (G_d0 t p (r 0) (pos 0) (pos 1))
  · intro t p r hr i
    have pos := posr r hr
    fin_cases i
    · skip
      refine grad_of_partials (DGDR0_diff t p r (pos 0) (pos 1)) fun j => partial_of_update ?_
      fin_cases j
      · exact (DGDR0_d0 t p (r 0) (pos 0) (pos 1))
  · intro t p r hr i j
    have pos := posr r hr
    fin_cases i <;> fin_cases j
    · skip
      refine grad_of_partials (D2GDR0R0_diff t p r (pos 0) (pos 1)) fun j => partial_of_update ?_
      fin_cases j
      · exact (D2GDR0R0_d0 t p (r 0) (pos 0) (pos 1))
  · intro t p r hr
    simp only [ofSites, F, H, S, V, G]
    refine HasDerivAt.congr_deriv (by hd) ?_
    ring
  · intro t p r hr; rfl
  · intro t p r hr
    have pos := posr r hr
    refine grad_of_partials (S_diff t p r (pos 0) (pos 1)) fun j => partial_of_update ?_
    fin_cases j
    · exact S_d0 t p (r 0) (pos 0) (pos 1)
  · intro t p r hr i
    have pos := posr r hr
    fin_cases i
    · skip
      refine grad_of_partials ((D2GDR0DT_diff t p r (pos 0) (pos 1)).fun_neg) fun j => partial_of_update ?_
      fin_cases j
      · exact ((D2GDR0DT_d0 t p (r 0) (pos 0) (pos 1))).fun_neg
  · intro t p r hr
    simp only [ofSites, F, H, S, V, G, D2GDT2]
    refine HasDerivAt.congr_deriv (by hd) ?_
    ring
  · intro t p r hr
    simp only [ofSites, F, D2GDT2, D3GDT3]
    refine HasDerivAt.congr_deriv (by hd) ?_
    ring
  · intro t p r hr
    refine grad_of_partials ?_ fun j => partial_of_update ?_
    · simp only [ofSites, F, D2GDT2]; dd
    · fin_cases j
      · change HasDerivAt (fun _ : ℝ => -t * (0 : ℝ)) (-t * (0 : ℝ)) _
        exact (hasDerivAt_const _ _).congr_deriv (by ring)
  · intro t p r hr
    simp only [ofSites, F, H, S, V, G, DGDP]
    refine HasDerivAt.congr_deriv (by hd) ?_
    ring
  · intro t p r hr
    have pos := posr r hr
    refine grad_of_partials (DGDP_diff t p r (pos 0) (pos 1)) fun j => partial_of_update ?_
    fin_cases j
    · exact (DGDP_d0 t p (r 0) (pos 0) (pos 1))
  · intro t p r hr i
    have pos := posr r hr
    fin_cases i
    · skip
      refine grad_of_partials (D2GDR0DP_diff t p r (pos 0) (pos 1)) fun j => partial_of_update ?_
      fin_cases j
      · exact (D2GDR0DP_d0 t p (r 0) (pos 0) (pos 1))
  · intro t p r hr
    simp only [ofSites, F, V, DGDP, D2GDTDP]
    refine HasDerivAt.congr_deriv (by hd) ?_
    ring
  · intro t p r hr
    simp only [ofSites, F, V, DGDP, D2GDP2]
    refine HasDerivAt.congr_deriv (by hd) ?_
    ring
  · intro t p r hr
    simp only [ofSites, F, D2GDTDP, D3GDT2DP]
    refine HasDerivAt.congr_deriv (by hd) ?_
    ring
  · intro t p r hr
    simp only [ofSites, F, D2GDTDP, D3GDTDP2]
    refine HasDerivAt.congr_deriv (by hd) ?_
    ring
  · intro t p r hr
    simp only [ofSites, F, D2GDP2, D3GDP3]
    refine HasDerivAt.congr_deriv (by hd) ?_
    ring
  · intro t p r hr i
    fin_cases i
    · change HasDerivAt (fun t => D2GDR0DP t p (r 0) (raw r 0) (raw r 1)) (D3GDR0DTDP t p (r 0) (raw r 0) (raw r 1)) t
      simp only [D2GDR0DP, D3GDR0DTDP]
      refine HasDerivAt.congr_deriv (by hd) ?_
      ring
  · intro t p r hr i
    fin_cases i
    · change HasDerivAt (fun p => D2GDR0DP t p (r 0) (raw r 0) (raw r 1)) (D3GDR0DP2 t p (r 0) (raw r 0) (raw r 1)) p
      simp only [D2GDR0DP, D3GDR0DP2]
      refine HasDerivAt.congr_deriv (by hd) ?_
      ring
  · intro t p r hr i
    fin_cases i
    · change HasDerivAt (fun t => DGDR0 t p (r 0) (raw r 0) (raw r 1)) (-(-(D2GDR0DT t p (r 0) (raw r 0) (raw r 1)))) t
      simp only [WG112, WG122, DGDR0, D2GDR0DT]
      refine HasDerivAt.congr_deriv (by hd) ?_
      ring
  · intro t p r hr i
    fin_cases i
    · change HasDerivAt (fun p => DGDR0 t p (r 0) (raw r 0) (raw r 1)) (D2GDR0DP t p (r 0) (raw r 0) (raw r 1)) p
      simp only [WG112, WG122, DGDR0, D2GDR0DP]
      refine HasDerivAt.congr_deriv (by hd) ?_
      ring
  · intro t p r hr h0 i
    fin_cases i
    · change HasDerivAt (fun t => -(D2GDR0DT t p (r 0) (raw r 0) (raw r 1))) (-t * (D3GDR0DT2 t p (r 0) (raw r 0) (raw r 1)) / t) t
      simp only [D2GDR0DT, D3GDR0DT2]
      refine HasDerivAt.congr_deriv (by hd) ?_
      first | ring | (field_simp; ring)
  · intro t p r hr
    refine grad_of_partials ?_ fun j => partial_of_update ?_
    · simp only [ofSites, F, D2GDP2]; dd
    · fin_cases j
      · change HasDerivAt (fun _ : ℝ => (0 : ℝ)) (0 : ℝ) _
        exact hasDerivAt_const _ _
  · intro t p r hr i j; fin_cases i <;> fin_cases j <;> rfl
  · intro t p r hr i j k; fin_cases i <;> fin_cases j <;> fin_cases k <;> exact ⟨rfl, rfl⟩
  · intro r hr; funext i; fin_cases i <;> rfl

theorem raw_continuous (k : Fin 2) : Continuous fun r => raw r k := by
  fin_cases k
  · change Continuous fun r : Fin 1 → ℝ => r 0
    fun_prop
  · change Continuous fun r : Fin 1 → ℝ => 1 - r 0
    fun_prop

theorem consistent : mix.Consistent (Interior raw) := consistent_clamp F raw raw_continuous consistent_raw

/-- The dependent end member of wadsleyite.c. -/
def dep : Fin 2 := 1

end Wadsleyite

/-- **C24.** Wadsleyite (wadsleyite.c): derivatives, entropy, enthalpy, heat capacity and volume of mixing fit together. -/
theorem C24_wadsleyite : Wadsleyite.mix.Consistent (Interior Wadsleyite.raw) := Wadsleyite.consistent

/-- The interior contains the composition 1 / 4. -/
example : Interior Wadsleyite.raw ![1 / 4] := by
  intro k
  fin_cases k
  · change ((1 / 4) : ℝ) > eps; unfold eps; norm_num
  · change (1 - (1 / 4) : ℝ) > eps; unfold eps; norm_num

/-- **C24.** The chemical potentials `act*` returns are the derivatives of the total Gibbs energy of mixing. -/
theorem C24_wadsleyite_potentials (t p : ℝ) (m : Fin 2 → ℝ) (h0 : ∑ i, m i ≠ 0)
    (hr : Interior Wadsleyite.raw (toR Wadsleyite.dep m)) (i : Fin 2) :
    Partial (fun m => (∑ i, m i) * Wadsleyite.mix.g t p (toR Wadsleyite.dep m)) m i
      (mu Wadsleyite.mix Wadsleyite.dep t p (toR Wadsleyite.dep m) i) :=
  C24_potential_is_derivative _ _ Wadsleyite.consistent _ t p m h0 hr i

/-- **C24.** The derivatives of the activities `act*` returns are their derivatives. -/
theorem C24_wadsleyite_activities (t p : ℝ) (r : Fin 1 → ℝ) (hr : Interior Wadsleyite.raw r) (i : Fin 2)
    (k : Fin 1) : Partial (fun r => act Wadsleyite.mix Wadsleyite.dep t p r i) r k (dact Wadsleyite.mix Wadsleyite.dep t p r i k) :=
  C24_activity_derivative _ _ Wadsleyite.consistent (isOpen_interior _ Wadsleyite.raw_continuous) _ t p r hr i k

namespace Wustite

/-- `WH112`, wustite.c 60. -/
def WH112 : ℝ := 16100

/-- `WS112`, wustite.c 61. -/
def WS112 : ℝ := 0

/-- `WV112`, wustite.c 62. -/
def WV112 : ℝ := 0

/-- `WH122`, wustite.c 63. -/
def WH122 : ℝ := 26300

/-- `WS122`, wustite.c 64. -/
def WS122 : ℝ := (139 / 25)

/-- `WV122`, wustite.c 65. -/
def WV122 : ℝ := 0

/-- `WG112`, wustite.c 67. -/
def WG112 (t p r0 xmg xfe : ℝ) : ℝ :=
  WH112 - t * WS112 + p * WV112

/-- `WG122`, wustite.c 68. -/
def WG122 (t p r0 xmg xfe : ℝ) : ℝ :=
  WH122 - t * WS122 + p * WV122

/-- `S`, wustite.c 84. -/
def S (t p r0 xmg xfe : ℝ) : ℝ :=
  (-R) * (xmg * Real.log xmg + xfe * Real.log xfe) + WS112 * xmg * xfe * xmg + WS122 * xmg * xfe * xfe

/-- `H`, wustite.c 85. -/
def H (t p r0 xmg xfe : ℝ) : ℝ :=
  WH112 * xmg * xfe * xmg + WH122 * xmg * xfe * xfe

/-- `V`, wustite.c 86. -/
def V (t p r0 xmg xfe : ℝ) : ℝ :=
  WV112 * xmg * xfe * xmg + WV122 * xmg * xfe * xfe

/-- `G`, wustite.c 87. -/
def G (t p r0 xmg xfe : ℝ) : ℝ :=
  (H t p r0 xmg xfe) - t * (S t p r0 xmg xfe) + p * (V t p r0 xmg xfe)

/-- `DGDR0`, wustite.c 89. -/
def DGDR0 (t p r0 xmg xfe : ℝ) : ℝ :=
  R * t * (Real.log xmg - Real.log xfe) + (WG112 t p r0 xmg xfe) * (xmg * xfe + (xfe - xmg) * xmg) + (WG122 t
    p r0 xmg xfe) * ((-xmg) * xfe + (xfe - xmg) * xfe)

/-- `DGDP`, wustite.c 90. -/
def DGDP (t p r0 xmg xfe : ℝ) : ℝ :=
  (V t p r0 xmg xfe)

/-- `D2GDR0R0`, wustite.c 92. -/
def D2GDR0R0 (t p r0 xmg xfe : ℝ) : ℝ :=
  R * t * (1 / xmg + 1 / xfe) + 2 * (xfe - xmg) * ((WG112 t p r0 xmg xfe) - (WG122 t p r0 xmg xfe)) - 2 *
    (WG112 t p r0 xmg xfe) * xmg - 2 * (WG122 t p r0 xmg xfe) * xfe

/-- `D2GDR0DT`, wustite.c 93. -/
def D2GDR0DT (t p r0 xmg xfe : ℝ) : ℝ :=
  R * (Real.log xmg - Real.log xfe) - (WS112 * (xmg * xfe + (xfe - xmg) * xmg) + WS122 * ((-xmg) * xfe + (xfe
    - xmg) * xfe))

/-- `D2GDR0DP`, wustite.c 94. -/
def D2GDR0DP (t p r0 xmg xfe : ℝ) : ℝ :=
  WV112 * (xmg * xfe + (xfe - xmg) * xmg) + WV122 * ((-xmg) * xfe + (xfe - xmg) * xfe)

/-- `D2GDT2`, wustite.c 95. -/
def D2GDT2 (t p r0 xmg xfe : ℝ) : ℝ :=
  0

/-- `D2GDTDP`, wustite.c 96. -/
def D2GDTDP (t p r0 xmg xfe : ℝ) : ℝ :=
  0

/-- `D2GDP2`, wustite.c 97. -/
def D2GDP2 (t p r0 xmg xfe : ℝ) : ℝ :=
  0

/-- `D3GDR0R0R0`, wustite.c 99. -/
def D3GDR0R0R0 (t p r0 xmg xfe : ℝ) : ℝ :=
  R * t * (1 / xfe ^ 2 - 1 / xmg ^ 2) + 6 * (WG122 t p r0 xmg xfe) - 6 * (WG112 t p r0 xmg xfe)

/-- `D3GDR0R0DT`, wustite.c 100. -/
def D3GDR0R0DT (t p r0 xmg xfe : ℝ) : ℝ :=
  R * (1 / xmg + 1 / xfe) - (2 * (xfe - xmg) * (WS112 - WS122) - 2 * WS112 * xmg - 2 * WS122 * xfe)

/-- `D3GDR0R0DP`, wustite.c 101. -/
def D3GDR0R0DP (t p r0 xmg xfe : ℝ) : ℝ :=
  2 * (xfe - xmg) * (WV112 - WV122) - 2 * WV112 * xmg - 2 * WV122 * xfe

/-- `D3GDT3`, wustite.c 102. -/
def D3GDT3 (t p r0 xmg xfe : ℝ) : ℝ :=
  0

/-- `D3GDT2DP`, wustite.c 103. -/
def D3GDT2DP (t p r0 xmg xfe : ℝ) : ℝ :=
  0

/-- `D3GDTDP2`, wustite.c 104. -/
def D3GDTDP2 (t p r0 xmg xfe : ℝ) : ℝ :=
  0

/-- `D3GDP3`, wustite.c 105. -/
def D3GDP3 (t p r0 xmg xfe : ℝ) : ℝ :=
  0

/-- `D3GDR0DT2`, wustite.c 107. -/
def D3GDR0DT2 (t p r0 xmg xfe : ℝ) : ℝ :=
  0

/-- `D3GDR0DTDP`, wustite.c 108. -/
def D3GDR0DTDP (t p r0 xmg xfe : ℝ) : ℝ :=
  0

/-- `D3GDR0DP2`, wustite.c 109. -/
def D3GDR0DP2 (t p r0 xmg xfe : ℝ) : ℝ :=
  0

/-- The macros as the functions of wustite.c use them: `gmix`, `hmix`, `smix`, `cpmix`, `vmix` and `act`. -/
def F (x : Fin 2 → ℝ) : Mix 1 where
  g t p r := G t p (r 0) (x 0) (x 1)
  gr t p r := ![DGDR0 t p (r 0) (x 0) (x 1)]
  grr t p r := ![![D2GDR0R0 t p (r 0) (x 0) (x 1)]]
  grrr t p r := ![![![D3GDR0R0R0 t p (r 0) (x 0) (x 1)]]]
  h t p r := (G t p (r 0) (x 0) (x 1)) + t * (S t p (r 0) (x 0) (x 1))
  s t p r := S t p (r 0) (x 0) (x 1)
  sr t p r := ![-(D2GDR0DT t p (r 0) (x 0) (x 1))]
  srr t p r := ![![-(D3GDR0R0DT t p (r 0) (x 0) (x 1))]]
  cp t p r := -t * (D2GDT2 t p (r 0) (x 0) (x 1))
  cpt t p r := -t * (D3GDT3 t p (r 0) (x 0) (x 1)) - D2GDT2 t p (r 0) (x 0) (x 1)
  cpr t p r := ![-t * (D3GDR0DT2 t p (r 0) (x 0) (x 1))]
  v t p r := DGDP t p (r 0) (x 0) (x 1)
  vr t p r := ![D2GDR0DP t p (r 0) (x 0) (x 1)]
  vrr t p r := ![![D3GDR0R0DP t p (r 0) (x 0) (x 1)]]
  vt t p r := D2GDTDP t p (r 0) (x 0) (x 1)
  vp t p r := D2GDP2 t p (r 0) (x 0) (x 1)
  vtt t p r := D3GDT2DP t p (r 0) (x 0) (x 1)
  vtp t p r := D3GDTDP2 t p (r 0) (x 0) (x 1)
  vpp t p r := D3GDP3 t p (r 0) (x 0) (x 1)
  vrt t p r := ![D3GDR0DTDP t p (r 0) (x 0) (x 1)]
  vrp t p r := ![D3GDR0DP2 t p (r 0) (x 0) (x 1)]
  fx r := ![x 0]

/-- Site fractions before clamping, lines 362 363 439 440 480 481 493 494 566 567 of wustite.c. -/
def raw (r : Fin 1 → ℝ) : Fin 2 → ℝ := ![r 0, 1 - r 0]

/-- The phase as coded in wustite.c. -/
def mix : Mix 1 := ofSites F fun r k => clamp (raw r k)

theorem G_d0 (t p r0 : ℝ) (h0 : 0 < r0) (h1 : 0 < 1 - r0) :
    HasDerivAt (fun r0 => G t p r0 r0 (1 - r0)) (DGDR0 t p r0 r0 (1 - r0)) r0 := by
  have n0 := h0.ne'
  have n1 := h1.ne'
  simp only [H, S, V, G, WG112, WG122, DGDR0]
  refine HasDerivAt.congr_deriv (by hd) ?_
  all_goals first | ring1 | (field_simp; done) | (field_simp; ring1)

theorem G_diff (t p : ℝ) (r : Fin 1 → ℝ) (h0 : 0 < r 0) (h1 : 0 < 1 - r 0) :
    DifferentiableAt ℝ (fun r : Fin 1 → ℝ => G t p (r 0) (r 0) (1 - r 0)) r := by
  have n0 := h0.ne'
  have n1 := h1.ne'
  simp only [H, S, V, G]
  dd

theorem DGDR0_d0 (t p r0 : ℝ) (h0 : 0 < r0) (h1 : 0 < 1 - r0) :
    HasDerivAt (fun r0 => DGDR0 t p r0 r0 (1 - r0)) (D2GDR0R0 t p r0 r0 (1 - r0)) r0 := by
  have n0 := h0.ne'
  have n1 := h1.ne'
  simp only [WG112, WG122, DGDR0, D2GDR0R0]
  refine HasDerivAt.congr_deriv (by hd) ?_
  all_goals first | ring1 | (field_simp; done) | (field_simp; ring1)

theorem DGDR0_diff (t p : ℝ) (r : Fin 1 → ℝ) (h0 : 0 < r 0) (h1 : 0 < 1 - r 0) :
    DifferentiableAt ℝ (fun r : Fin 1 → ℝ => DGDR0 t p (r 0) (r 0) (1 - r 0)) r := by
  have n0 := h0.ne'
  have n1 := h1.ne'
  simp only [WG112, WG122, DGDR0]
  dd

theorem D2GDR0R0_d0 (t p r0 : ℝ) (h0 : 0 < r0) (h1 : 0 < 1 - r0) :
    HasDerivAt (fun r0 => D2GDR0R0 t p r0 r0 (1 - r0)) (D3GDR0R0R0 t p r0 r0 (1 - r0)) r0 := by
  have n0 := h0.ne'
  have n1 := h1.ne'
  simp only [WG112, WG122, D2GDR0R0, D3GDR0R0R0]
  refine HasDerivAt.congr_deriv (by hd) ?_
  all_goals first | ring1 | (field_simp; done) | (field_simp; ring1)

theorem D2GDR0R0_diff (t p : ℝ) (r : Fin 1 → ℝ) (h0 : 0 < r 0) (h1 : 0 < 1 - r 0) :
    DifferentiableAt ℝ (fun r : Fin 1 → ℝ => D2GDR0R0 t p (r 0) (r 0) (1 - r 0)) r := by
  have n0 := h0.ne'
  have n1 := h1.ne'
  simp only [WG112, WG122, D2GDR0R0]
  dd

theorem S_d0 (t p r0 : ℝ) (h0 : 0 < r0) (h1 : 0 < 1 - r0) :
    HasDerivAt (fun r0 => S t p r0 r0 (1 - r0)) (-(D2GDR0DT t p r0 r0 (1 - r0))) r0 := by
  have n0 := h0.ne'
  have n1 := h1.ne'
  simp only [S, D2GDR0DT]
  refine HasDerivAt.congr_deriv (by hd) ?_
  all_goals first | ring1 | (field_simp; done) | (field_simp; ring1)

theorem S_diff (t p : ℝ) (r : Fin 1 → ℝ) (h0 : 0 < r 0) (h1 : 0 < 1 - r 0) :
    DifferentiableAt ℝ (fun r : Fin 1 → ℝ => S t p (r 0) (r 0) (1 - r 0)) r := by
  have n0 := h0.ne'
  have n1 := h1.ne'
  simp only [S]
  dd

theorem D2GDR0DT_d0 (t p r0 : ℝ) (h0 : 0 < r0) (h1 : 0 < 1 - r0) :
    HasDerivAt (fun r0 => D2GDR0DT t p r0 r0 (1 - r0)) (D3GDR0R0DT t p r0 r0 (1 - r0)) r0 := by
  have n0 := h0.ne'
  have n1 := h1.ne'
  simp only [D2GDR0DT, D3GDR0R0DT]
  refine HasDerivAt.congr_deriv (by hd) ?_
  all_goals first | ring1 | (field_simp; done) | (field_simp; ring1)

theorem D2GDR0DT_diff (t p : ℝ) (r : Fin 1 → ℝ) (h0 : 0 < r 0) (h1 : 0 < 1 - r 0) :
    DifferentiableAt ℝ (fun r : Fin 1 → ℝ => D2GDR0DT t p (r 0) (r 0) (1 - r 0)) r := by
  have n0 := h0.ne'
  have n1 := h1.ne'
  simp only [D2GDR0DT]
  dd

theorem DGDP_d0 (t p r0 : ℝ) (h0 : 0 < r0) (h1 : 0 < 1 - r0) :
    HasDerivAt (fun r0 => DGDP t p r0 r0 (1 - r0)) (D2GDR0DP t p r0 r0 (1 - r0)) r0 := by
  have n0 := h0.ne'
  have n1 := h1.ne'
  simp only [V, DGDP, D2GDR0DP]
  refine HasDerivAt.congr_deriv (by hd) ?_
  all_goals first | ring1 | (field_simp; done) | (field_simp; ring1)

theorem DGDP_diff (t p : ℝ) (r : Fin 1 → ℝ) (h0 : 0 < r 0) (h1 : 0 < 1 - r 0) :
    DifferentiableAt ℝ (fun r : Fin 1 → ℝ => DGDP t p (r 0) (r 0) (1 - r 0)) r := by
  have n0 := h0.ne'
  have n1 := h1.ne'
  simp only [V, DGDP]
  dd

theorem D2GDR0DP_d0 (t p r0 : ℝ) (h0 : 0 < r0) (h1 : 0 < 1 - r0) :
    HasDerivAt (fun r0 => D2GDR0DP t p r0 r0 (1 - r0)) (D3GDR0R0DP t p r0 r0 (1 - r0)) r0 := by
  have n0 := h0.ne'
  have n1 := h1.ne'
  simp only [D2GDR0DP, D3GDR0R0DP]
  refine HasDerivAt.congr_deriv (by hd) ?_
  all_goals first | ring1 | (field_simp; done) | (field_simp; ring1)

theorem D2GDR0DP_diff (t p : ℝ) (r : Fin 1 → ℝ) (h0 : 0 < r 0) (h1 : 0 < 1 - r 0) :
    DifferentiableAt ℝ (fun r : Fin 1 → ℝ => D2GDR0DP t p (r 0) (r 0) (1 - r 0)) r := by
  have n0 := h0.ne'
  have n1 := h1.ne'
  simp only [D2GDR0DP]
  dd

set_option maxHeartbeats 1600000 in
theorem consistent_raw : (ofSites F raw).Consistent (Interior raw) := by
  have posr : ∀ r, Interior raw r → ∀ k, 0 < raw r k := fun r hr k => lt_trans eps_pos (hr k)
  constructor
  · intro t p r hr
    have pos := posr r hr
    refine grad_of_partials (G_diff t p r (pos 0) (pos 1)) fun j => partial_of_update ?_
    fin_cases j
    · exact (G_d0 t p (r 0) (pos 0) (pos 1))
  · intro t p r hr i
    have pos := posr r hr
    fin_cases i
    · skip
      refine grad_of_partials (DGDR0_diff t p r (pos 0) (pos 1)) fun j => partial_of_update ?_
      fin_cases j
      · exact (DGDR0_d0 t p (r 0) (pos 0) (pos 1))
  · intro t p r hr i j
    have pos := posr r hr
    fin_cases i <;> fin_cases j
    · skip
      refine grad_of_partials (D2GDR0R0_diff t p r (pos 0) (pos 1)) fun j => partial_of_update ?_
      fin_cases j
      · exact (D2GDR0R0_d0 t p (r 0) (pos 0) (pos 1))
  · intro t p r hr
    simp only [ofSites, F, H, S, V, G]
    refine HasDerivAt.congr_deriv (by hd) ?_
    ring
  · intro t p r hr; rfl
  · intro t p r hr
    have pos := posr r hr
    refine grad_of_partials (S_diff t p r (pos 0) (pos 1)) fun j => partial_of_update ?_
    fin_cases j
    · exact S_d0 t p (r 0) (pos 0) (pos 1)
  · intro t p r hr i
    have pos := posr r hr
    fin_cases i
    · skip
      refine grad_of_partials ((D2GDR0DT_diff t p r (pos 0) (pos 1)).fun_neg) fun j => partial_of_update ?_
      fin_cases j
      · exact ((D2GDR0DT_d0 t p (r 0) (pos 0) (pos 1))).fun_neg
  · intro t p r hr
    simp only [ofSites, F, H, S, V, G, D2GDT2]
    refine HasDerivAt.congr_deriv (by hd) ?_
    ring
  · intro t p r hr
    simp only [ofSites, F, D2GDT2, D3GDT3]
    refine HasDerivAt.congr_deriv (by hd) ?_
    ring
  · intro t p r hr
    refine grad_of_partials ?_ fun j => partial_of_update ?_
    · simp only [ofSites, F, D2GDT2]; dd
    · fin_cases j
      · change HasDerivAt (fun _ : ℝ => -t * (0 : ℝ)) (-t * (0 : ℝ)) _
        exact (hasDerivAt_const _ _).congr_deriv (by ring)
  · intro t p r hr
    simp only [ofSites, F, H, S, V, G, DGDP]
    refine HasDerivAt.congr_deriv (by hd) ?_
    ring
  · intro t p r hr
    have pos := posr r hr
    refine grad_of_partials (DGDP_diff t p r (pos 0) (pos 1)) fun j => partial_of_update ?_
    fin_cases j
    · exact (DGDP_d0 t p (r 0) (pos 0) (pos 1))
  · intro t p r hr i
    have pos := posr r hr
    fin_cases i
    · skip
      refine grad_of_partials (D2GDR0DP_diff t p r (pos 0) (pos 1)) fun j => partial_of_update ?_
      fin_cases j
      · exact (D2GDR0DP_d0 t p (r 0) (pos 0) (pos 1))
  · intro t p r hr
    simp only [ofSites, F, V, DGDP, D2GDTDP]
    refine HasDerivAt.congr_deriv (by hd) ?_
    ring
  · intro t p r hr
    simp only [ofSites, F, V, DGDP, D2GDP2]
    refine HasDerivAt.congr_deriv (by hd) ?_
    ring
  · intro t p r hr
    simp only [ofSites, F, D2GDTDP, D3GDT2DP]
    refine HasDerivAt.congr_deriv (by hd) ?_
    ring
  · intro t p r hr
    simp only [ofSites, F, D2GDTDP, D3GDTDP2]
    refine HasDerivAt.congr_deriv (by hd) ?_
    ring
  · intro t p r hr
    simp only [ofSites, F, D2GDP2, D3GDP3]
    refine HasDerivAt.congr_deriv (by hd) ?_
    ring
  · intro t p r hr i
    fin_cases i
    · change HasDerivAt (fun t => D2GDR0DP t p (r 0) (raw r 0) (raw r 1)) (D3GDR0DTDP t p (r 0) (raw r 0) (raw r 1)) t
      simp only [D2GDR0DP, D3GDR0DTDP]
      refine HasDerivAt.congr_deriv (by hd) ?_
      ring
  · intro t p r hr i
    fin_cases i
    · change HasDerivAt (fun p => D2GDR0DP t p (r 0) (raw r 0) (raw r 1)) (D3GDR0DP2 t p (r 0) (raw r 0) (raw r 1)) p
      simp only [D2GDR0DP, D3GDR0DP2]
      refine HasDerivAt.congr_deriv (by hd) ?_
      ring
  · intro t p r hr i
    fin_cases i
    · change HasDerivAt (fun t => DGDR0 t p (r 0) (raw r 0) (raw r 1)) (-(-(D2GDR0DT t p (r 0) (raw r 0) (raw r 1)))) t
      simp only [WG112, WG122, DGDR0, D2GDR0DT]
      refine HasDerivAt.congr_deriv (by hd) ?_
      ring
  · intro t p r hr i
    fin_cases i
    · change HasDerivAt (fun p => DGDR0 t p (r 0) (raw r 0) (raw r 1)) (D2GDR0DP t p (r 0) (raw r 0) (raw r 1)) p
      simp only [WG112, WG122, DGDR0, D2GDR0DP]
      refine HasDerivAt.congr_deriv (by hd) ?_
      ring
  · intro t p r hr h0 i
    fin_cases i
    · change HasDerivAt (fun t => -(D2GDR0DT t p (r 0) (raw r 0) (raw r 1))) (-t * (D3GDR0DT2 t p (r 0) (raw r 0) (raw r 1)) / t) t
      simp only [D2GDR0DT, D3GDR0DT2]
      refine HasDerivAt.congr_deriv (by hd) ?_
      first | ring | (field_simp; ring)
  · intro t p r hr
    refine grad_of_partials ?_ fun j => partial_of_update ?_
    · simp only [ofSites, F, D2GDP2]; dd
    · fin_cases j
      · change HasDerivAt (fun _ : ℝ => (0 : ℝ)) (0 : ℝ) _
        exact hasDerivAt_const _ _
  · intro t p r hr i j; fin_cases i <;> fin_cases j <;> rfl
  · intro t p r hr i j k; fin_cases i <;> fin_cases j <;> fin_cases k <;> exact ⟨rfl, rfl⟩
  · intro r hr; funext i; fin_cases i <;> rfl

theorem raw_continuous (k : Fin 2) : Continuous fun r => raw r k := by
  fin_cases k
  · change Continuous fun r : Fin 1 → ℝ => r 0
    fun_prop
  · change Continuous fun r : Fin 1 → ℝ => 1 - r 0
    fun_prop

theorem consistent : mix.Consistent (Interior raw) := consistent_clamp F raw raw_continuous consistent_raw

/-- The dependent end member of wustite.c. -/
def dep : Fin 2 := 1

end Wustite

/-- **C24.** Wustite (wustite.c): derivatives, entropy, enthalpy, heat capacity and volume of mixing fit together. -/
theorem C24_wustite : Wustite.mix.Consistent (Interior Wustite.raw) := Wustite.consistent

/-- The interior contains the composition 1 / 4. -/
example : Interior Wustite.raw ![1 / 4] := by
  intro k
  fin_cases k
  · change ((1 / 4) : ℝ) > eps; unfold eps; norm_num
  · change (1 - (1 / 4) : ℝ) > eps; unfold eps; norm_num

/-- **C24.** The chemical potentials `act*` returns are the derivatives of the total Gibbs energy of mixing. -/
theorem C24_wustite_potentials (t p : ℝ) (m : Fin 2 → ℝ) (h0 : ∑ i, m i ≠ 0)
    (hr : Interior Wustite.raw (toR Wustite.dep m)) (i : Fin 2) :
    Partial (fun m => (∑ i, m i) * Wustite.mix.g t p (toR Wustite.dep m)) m i
      (mu Wustite.mix Wustite.dep t p (toR Wustite.dep m) i) :=
  C24_potential_is_derivative _ _ Wustite.consistent _ t p m h0 hr i

/-- **C24.** The derivatives of the activities `act*` returns are their derivatives. -/
theorem C24_wustite_activities (t p : ℝ) (r : Fin 1 → ℝ) (hr : Interior Wustite.raw r) (i : Fin 2)
    (k : Fin 1) : Partial (fun r => act Wustite.mix Wustite.dep t p r i) r k (dact Wustite.mix Wustite.dep t p r i k) :=
  C24_activity_derivative _ _ Wustite.consistent (isOpen_interior _ Wustite.raw_continuous) _ t p r hr i k

namespace Ilmenite

/-- `WH112`, ilmenite.c 60. -/
def WH112 : ℝ := 0

/-- `WS112`, ilmenite.c 61. -/
def WS112 : ℝ := 0

/-- `WV112`, ilmenite.c 62. -/
def WV112 : ℝ := 0

/-- `WH122`, ilmenite.c 63. -/
def WH122 : ℝ := 0

/-- `WS122`, ilmenite.c 64. -/
def WS122 : ℝ := 0

/-- `WV122`, ilmenite.c 65. -/
def WV122 : ℝ := 0

/-- `WG112`, ilmenite.c 67. -/
def WG112 (t p r0 xmg xfe : ℝ) : ℝ :=
  WH112 - t * WS112 + p * WV112

/-- `WG122`, ilmenite.c 68. -/
def WG122 (t p r0 xmg xfe : ℝ) : ℝ :=
  WH122 - t * WS122 + p * WV122

/-- `S`, ilmenite.c 84. -/
def S (t p r0 xmg xfe : ℝ) : ℝ :=
  (-R) * (xmg * Real.log xmg + xfe * Real.log xfe) + WS112 * xmg * xfe * xmg + WS122 * xmg * xfe * xfe

/-- `H`, ilmenite.c 85. -/
def H (t p r0 xmg xfe : ℝ) : ℝ :=
  WH112 * xmg * xfe * xmg + WH122 * xmg * xfe * xfe

/-- `V`, ilmenite.c 86. -/
def V (t p r0 xmg xfe : ℝ) : ℝ :=
  WV112 * xmg * xfe * xmg + WV122 * xmg * xfe * xfe

/-- `G`, ilmenite.c 87. -/
def G (t p r0 xmg xfe : ℝ) : ℝ :=
  (H t p r0 xmg xfe) - t * (S t p r0 xmg xfe) + p * (V t p r0 xmg xfe)

/-- `DGDR0`, ilmenite.c 89. -/
def DGDR0 (t p r0 xmg xfe : ℝ) : ℝ :=
  R * t * (Real.log xmg - Real.log xfe) + (WG112 t p r0 xmg xfe) * (xmg * xfe + (xfe - xmg) * xmg) + (WG122 t
    p r0 xmg xfe) * ((-xmg) * xfe + (xfe - xmg) * xfe)

/-- `DGDP`, ilmenite.c 90. -/
def DGDP (t p r0 xmg xfe : ℝ) : ℝ :=
  (V t p r0 xmg xfe)

/-- `D2GDR0R0`, ilmenite.c 92. -/
def D2GDR0R0 (t p r0 xmg xfe : ℝ) : ℝ :=
  R * t * (1 / xmg + 1 / xfe) + 2 * (xfe - xmg) * ((WG112 t p r0 xmg xfe) - (WG122 t p r0 xmg xfe)) - 2 *
    (WG112 t p r0 xmg xfe) * xmg - 2 * (WG122 t p r0 xmg xfe) * xfe

/-- `D2GDR0DT`, ilmenite.c 93. -/
def D2GDR0DT (t p r0 xmg xfe : ℝ) : ℝ :=
  R * (Real.log xmg - Real.log xfe) - (WS112 * (xmg * xfe + (xfe - xmg) * xmg) + WS122 * ((-xmg) * xfe + (xfe
    - xmg) * xfe))

/-- `D2GDR0DP`, ilmenite.c 94. -/
def D2GDR0DP (t p r0 xmg xfe : ℝ) : ℝ :=
  WV112 * (xmg * xfe + (xfe - xmg) * xmg) + WV122 * ((-xmg) * xfe + (xfe - xmg) * xfe)

/-- `D2GDT2`, ilmenite.c 95. -/
def D2GDT2 (t p r0 xmg xfe : ℝ) : ℝ :=
  0

/-- `D2GDTDP`, ilmenite.c 96. -/
def D2GDTDP (t p r0 xmg xfe : ℝ) : ℝ :=
  0

/-- `D2GDP2`, ilmenite.c 97. -/
def D2GDP2 (t p r0 xmg xfe : ℝ) : ℝ :=
  0

/-- `D3GDR0R0R0`, ilmenite.c 99. -/
def D3GDR0R0R0 (t p r0 xmg xfe : ℝ) : ℝ :=
  R * t * (1 / xfe ^ 2 - 1 / xmg ^ 2) + 6 * (WG122 t p r0 xmg xfe) - 6 * (WG112 t p r0 xmg xfe)

/-- `D3GDR0R0DT`, ilmenite.c 100. -/
def D3GDR0R0DT (t p r0 xmg xfe : ℝ) : ℝ :=
  R * (1 / xmg + 1 / xfe) - (2 * (xfe - xmg) * (WS112 - WS122) - 2 * WS112 * xmg - 2 * WS122 * xfe)

/-- `D3GDR0R0DP`, ilmenite.c 101. -/
def D3GDR0R0DP (t p r0 xmg xfe : ℝ) : ℝ :=
  2 * (xfe - xmg) * (WV112 - WV122) - 2 * WV112 * xmg - 2 * WV122 * xfe

/-- `D3GDT3`, ilmenite.c 102. -/
def D3GDT3 (t p r0 xmg xfe : ℝ) : ℝ :=
  0

/-- `D3GDT2DP`, ilmenite.c 103. -/
def D3GDT2DP (t p r0 xmg xfe : ℝ) : ℝ :=
  0

/-- `D3GDTDP2`, ilmenite.c 104. -/
def D3GDTDP2 (t p r0 xmg xfe : ℝ) : ℝ :=
  0

/-- `D3GDP3`, ilmenite.c 105. -/
def D3GDP3 (t p r0 xmg xfe : ℝ) : ℝ :=
  0

/-- `D3GDR0DT2`, ilmenite.c 107. -/
def D3GDR0DT2 (t p r0 xmg xfe : ℝ) : ℝ :=
  0

/-- `D3GDR0DTDP`, ilmenite.c 108. -/
def D3GDR0DTDP (t p r0 xmg xfe : ℝ) : ℝ :=
  0

/-- `D3GDR0DP2`, ilmenite.c 109. -/
def D3GDR0DP2 (t p r0 xmg xfe : ℝ) : ℝ :=
  0

/-- The macros as the functions of ilmenite.c use them: `gmix`, `hmix`, `smix`, `cpmix`, `vmix` and `act`. -/
def F (x : Fin 2 → ℝ) : Mix 1 where
  g t p r := G t p (r 0) (x 0) (x 1)
  gr t p r := ![DGDR0 t p (r 0) (x 0) (x 1)]
  grr t p r := ![![D2GDR0R0 t p (r 0) (x 0) (x 1)]]
  grrr t p r := ![![![D3GDR0R0R0 t p (r 0) (x 0) (x 1)]]]
  h t p r := (G t p (r 0) (x 0) (x 1)) + t * (S t p (r 0) (x 0) (x 1))
  s t p r := S t p (r 0) (x 0) (x 1)
  sr t p r := ![-(D2GDR0DT t p (r 0) (x 0) (x 1))]
  srr t p r := ![![-(D3GDR0R0DT t p (r 0) (x 0) (x 1))]]
  cp t p r := -t * (D2GDT2 t p (r 0) (x 0) (x 1))
  cpt t p r := -t * (D3GDT3 t p (r 0) (x 0) (x 1)) - D2GDT2 t p (r 0) (x 0) (x 1)
  cpr t p r := ![-t * (D3GDR0DT2 t p (r 0) (x 0) (x 1))]
  v t p r := DGDP t p (r 0) (x 0) (x 1)
  vr t p r := ![D2GDR0DP t p (r 0) (x 0) (x 1)]
  vrr t p r := ![![D3GDR0R0DP t p (r 0) (x 0) (x 1)]]
  vt t p r := D2GDTDP t p (r 0) (x 0) (x 1)
  vp t p r := D2GDP2 t p (r 0) (x 0) (x 1)
  vtt t p r := D3GDT2DP t p (r 0) (x 0) (x 1)
  vtp t p r := D3GDTDP2 t p (r 0) (x 0) (x 1)
  vpp t p r := D3GDP3 t p (r 0) (x 0) (x 1)
  vrt t p r := ![D3GDR0DTDP t p (r 0) (x 0) (x 1)]
  vrp t p r := ![D3GDR0DP2 t p (r 0) (x 0) (x 1)]
  fx r := ![x 0]

/-- Site fractions before clamping, lines 362 363 448 449 489 490 502 503 575 576 of ilmenite.c. -/
def raw (r : Fin 1 → ℝ) : Fin 2 → ℝ := ![r 0, 1 - r 0]

/-- The phase as coded in ilmenite.c. -/
def mix : Mix 1 := ofSites F fun r k => clamp (raw r k)

theorem G_d0 (t p r0 : ℝ) (h0 : 0 < r0) (h1 : 0 < 1 - r0) :
    HasDerivAt (fun r0 => G t p r0 r0 (1 - r0)) (DGDR0 t p r0 r0 (1 - r0)) r0 := by
  have n0 := h0.ne'
  have n1 := h1.ne'
  simp only [H, S, V, G, WG112, WG122, DGDR0]
  refine HasDerivAt.congr_deriv (by hd) ?_
  all_goals first | ring1 | (field_simp; done) | (field_simp; ring1)

theorem G_diff (t p : ℝ) (r : Fin 1 → ℝ) (h0 : 0 < r 0) (h1 : 0 < 1 - r 0) :
    DifferentiableAt ℝ (fun r : Fin 1 → ℝ => G t p (r 0) (r 0) (1 - r 0)) r := by
  have n0 := h0.ne'
  have n1 := h1.ne'
  simp only [H, S, V, G]
  dd

theorem DGDR0_d0 (t p r0 : ℝ) (h0 : 0 < r0) (h1 : 0 < 1 - r0) :
    HasDerivAt (fun r0 => DGDR0 t p r0 r0 (1 - r0)) (D2GDR0R0 t p r0 r0 (1 - r0)) r0 := by
  have n0 := h0.ne'
  have n1 := h1.ne'
  simp only [WG112, WG122, DGDR0, D2GDR0R0]
  refine HasDerivAt.congr_deriv (by hd) ?_
  all_goals first | ring1 | (field_simp; done) | (field_simp; ring1)

theorem DGDR0_diff (t p : ℝ) (r : Fin 1 → ℝ) (h0 : 0 < r 0) (h1 : 0 < 1 - r 0) :
    DifferentiableAt ℝ (fun r : Fin 1 → ℝ => DGDR0 t p (r 0) (r 0) (1 - r 0)) r := by
  have n0 := h0.ne'
  have n1 := h1.ne'
  simp only [WG112, WG122, DGDR0]
  dd

theorem D2GDR0R0_d0 (t p r0 : ℝ) (h0 : 0 < r0) (h1 : 0 < 1 - r0) :
    HasDerivAt (fun r0 => D2GDR0R0 t p r0 r0 (1 - r0)) (D3GDR0R0R0 t p r0 r0 (1 - r0)) r0 := by
  have n0 := h0.ne'
  have n1 := h1.ne'
  simp only [WG112, WG122, D2GDR0R0, D3GDR0R0R0]
  refine HasDerivAt.congr_deriv (by hd) ?_
  all_goals first | ring1 | (field_simp; done) | (field_simp; ring1)

theorem D2GDR0R0_diff (t p : ℝ) (r : Fin 1 → ℝ) (h0 : 0 < r 0) (h1 : 0 < 1 - r 0) :
    DifferentiableAt ℝ (fun r : Fin 1 → ℝ => D2GDR0R0 t p (r 0) (r 0) (1 - r 0)) r := by
  have n0 := h0.ne'
  have n1 := h1.ne'
  simp only [WG112, WG122, D2GDR0R0]
  dd

theorem S_d0 (t p r0 : ℝ) (h0 : 0 < r0) (h1 : 0 < 1 - r0) :
    HasDerivAt (fun r0 => S t p r0 r0 (1 - r0)) (-(D2GDR0DT t p r0 r0 (1 - r0))) r0 := by
  have n0 := h0.ne'
  have n1 := h1.ne'
  simp only [S, D2GDR0DT]
  refine HasDerivAt.congr_deriv (by hd) ?_
  all_goals first | ring1 | (field_simp; done) | (field_simp; ring1)

theorem S_diff (t p : ℝ) (r : Fin 1 → ℝ) (h0 : 0 < r 0) (h1 : 0 < 1 - r 0) :
    DifferentiableAt ℝ (fun r : Fin 1 → ℝ => S t p (r 0) (r 0) (1 - r 0)) r := by
  have n0 := h0.ne'
  have n1 := h1.ne'
  simp only [S]
  dd

theorem D2GDR0DT_d0 (t p r0 : ℝ) (h0 : 0 < r0) (h1 : 0 < 1 - r0) :
    HasDerivAt (fun r0 => D2GDR0DT t p r0 r0 (1 - r0)) (D3GDR0R0DT t p r0 r0 (1 - r0)) r0 := by
  have n0 := h0.ne'
  have n1 := h1.ne'
  simp only [D2GDR0DT, D3GDR0R0DT]
  refine HasDerivAt.congr_deriv (by hd) ?_
  all_goals first | ring1 | (field_simp; done) | (field_simp; ring1)

theorem D2GDR0DT_diff (t p : ℝ) (r : Fin 1 → ℝ) (h0 : 0 < r 0) (h1 : 0 < 1 - r 0) :
    DifferentiableAt ℝ (fun r : Fin 1 → ℝ => D2GDR0DT t p (r 0) (r 0) (1 - r 0)) r := by
  have n0 := h0.ne'
  have n1 := h1.ne'
  simp only [D2GDR0DT]
  dd

theorem DGDP_d0 (t p r0 : ℝ) (h0 : 0 < r0) (h1 : 0 < 1 - r0) :
    HasDerivAt (fun r0 => DGDP t p r0 r0 (1 - r0)) (D2GDR0DP t p r0 r0 (1 - r0)) r0 := by
  have n0 := h0.ne'
  have n1 := h1.ne'
  simp only [V, DGDP, D2GDR0DP]
  refine HasDerivAt.congr_deriv (by hd) ?_
  all_goals first | ring1 | (field_simp; done) | (field_simp; ring1)

theorem DGDP_diff (t p : ℝ) (r : Fin 1 → ℝ) (h0 : 0 < r 0) (h1 : 0 < 1 - r 0) :
    DifferentiableAt ℝ (fun r : Fin 1 → ℝ => DGDP t p (r 0) (r 0) (1 - r 0)) r := by
  have n0 := h0.ne'
  have n1 := h1.ne'
  simp only [V, DGDP]
  dd

theorem D2GDR0DP_d0 (t p r0 : ℝ) (h0 : 0 < r0) (h1 : 0 < 1 - r0) :
    HasDerivAt (fun r0 => D2GDR0DP t p r0 r0 (1 - r0)) (D3GDR0R0DP t p r0 r0 (1 - r0)) r0 := by
  have n0 := h0.ne'
  have n1 := h1.ne'
  simp only [D2GDR0DP, D3GDR0R0DP]
  refine HasDerivAt.congr_deriv (by hd) ?_
  all_goals first | ring1 | (field_simp; done) | (field_simp; ring1)

theorem D2GDR0DP_diff (t p : ℝ) (r : Fin 1 → ℝ) (h0 : 0 < r 0) (h1 : 0 < 1 - r 0) :
    DifferentiableAt ℝ (fun r : Fin 1 → ℝ => D2GDR0DP t p (r 0) (r 0) (1 - r 0)) r := by
  have n0 := h0.ne'
  have n1 := h1.ne'
  simp only [D2GDR0DP]
  dd

set_option maxHeartbeats 1600000 in
theorem consistent_raw : (ofSites F raw).Consistent (Interior raw) := by
  have posr : ∀ r, Interior raw r → ∀ k, 0 < raw r k := fun r hr k => lt_trans eps_pos (hr k)
  constructor
  · intro t p r hr
    have pos := posr r hr
    refine grad_of_partials (G_diff t p r (pos 0) (pos 1)) fun j => partial_of_update ?_
    fin_cases j
    · exact (G_d0 t p (r 0) (pos 0) (pos 1))
  · intro t p r hr i
    have pos := posr r hr
    fin_cases i
    · skip
      refine grad_of_partials (DGDR0_diff t p r (pos 0) (pos 1)) fun j => partial_of_update ?_
      fin_cases j
      · exact (DGDR0_d0 t p (r 0) (pos 0) (pos 1))
  · intro t p r hr i j
    have pos := posr r hr
    fin_cases i <;> fin_cases j
    · skip
      refine grad_of_partials (D2GDR0R0_diff t p r (pos 0) (pos 1)) fun j => partial_of_update ?_
      fin_cases j
      · exact (D2GDR0R0_d0 t p (r 0) (pos 0) (pos 1))
  · intro t p r hr
    simp only [ofSites, F, H, S, V, G]
    refine HasDerivAt.congr_deriv (by hd) ?_
    ring
  · intro t p r hr; rfl
  · intro t p r hr
    have pos := posr r hr
    refine grad_of_partials (S_diff t p r (pos 0) (pos 1)) fun j => partial_of_update ?_
    fin_cases j
    · exact S_d0 t p (r 0) (pos 0) (pos 1)
  · intro t p r hr i
    have pos := posr r hr
    fin_cases i
    · skip
      refine grad_of_partials ((D2GDR0DT_diff t p r (pos 0) (pos 1)).fun_neg) fun j => partial_of_update ?_
      fin_cases j
      · exact ((D2GDR0DT_d0 t p (r 0) (pos 0) (pos 1))).fun_neg
  · intro t p r hr
    simp only [ofSites, F, H, S, V, G, D2GDT2]
    refine HasDerivAt.congr_deriv (by hd) ?_
    ring
  · intro t p r hr
    simp only [ofSites, F, D2GDT2, D3GDT3]
    refine HasDerivAt.congr_deriv (by hd) ?_
    ring
  · intro t p r hr
    refine grad_of_partials ?_ fun j => partial_of_update ?_
    · simp only [ofSites, F, D2GDT2]; dd
    · fin_cases j
      · change HasDerivAt (fun _ : ℝ => -t * (0 : ℝ)) (-t * (0 : ℝ)) _
        exact (hasDerivAt_const _ _).congr_deriv (by ring)
  · intro t p r hr
    simp only [ofSites, F, H, S, V, G, DGDP]
    refine HasDerivAt.congr_deriv (by hd) ?_
    ring
  · intro t p r hr
    have pos := posr r hr
    refine grad_of_partials (DGDP_diff t p r (pos 0) (pos 1)) fun j => partial_of_update ?_
    fin_cases j
    · exact (DGDP_d0 t p (r 0) (pos 0) (pos 1))
  · intro t p r hr i
    have pos := posr r hr
    fin_cases i
    · skip
      refine grad_of_partials (D2GDR0DP_diff t p r (pos 0) (pos 1)) fun j => partial_of_update ?_
      fin_cases j
      · exact (D2GDR0DP_d0 t p (r 0) (pos 0) (pos 1))
  · intro t p r hr
    simp only [ofSites, F, V, DGDP, D2GDTDP]
    refine HasDerivAt.congr_deriv (by hd) ?_
    ring
  · intro t p r hr
    simp only [ofSites, F, V, DGDP, D2GDP2]
    refine HasDerivAt.congr_deriv (by hd) ?_
    ring
  · intro t p r hr
    simp only [ofSites, F, D2GDTDP, D3GDT2DP]
    refine HasDerivAt.congr_deriv (by hd) ?_
    ring
  · intro t p r hr
    simp only [ofSites, F, D2GDTDP, D3GDTDP2]
    refine HasDerivAt.congr_deriv (by hd) ?_
    ring
  · intro t p r hr
    simp only [ofSites, F, D2GDP2, D3GDP3]
    refine HasDerivAt.congr_deriv (by hd) ?_
    ring
  · intro t p r hr i
    fin_cases i
    · change HasDerivAt (fun t => D2GDR0DP t p (r 0) (raw r 0) (raw r 1)) (D3GDR0DTDP t p (r 0) (raw r 0) (raw r 1)) t
      simp only [D2GDR0DP, D3GDR0DTDP]
      refine HasDerivAt.congr_deriv (by hd) ?_
      ring
  · intro t p r hr i
    fin_cases i
    · change HasDerivAt (fun p => D2GDR0DP t p (r 0) (raw r 0) (raw r 1)) (D3GDR0DP2 t p (r 0) (raw r 0) (raw r 1)) p
      simp only [D2GDR0DP, D3GDR0DP2]
      refine HasDerivAt.congr_deriv (by hd) ?_
      ring
  · intro t p r hr i
    fin_cases i
    · change HasDerivAt (fun t => DGDR0 t p (r 0) (raw r 0) (raw r 1)) (-(-(D2GDR0DT t p (r 0) (raw r 0) (raw r 1)))) t
      simp only [WG112, WG122, DGDR0, D2GDR0DT]
      refine HasDerivAt.congr_deriv (by hd) ?_
      ring
  · intro t p r hr i
    fin_cases i
    · change HasDerivAt (fun p => DGDR0 t p (r 0) (raw r 0) (raw r 1)) (D2GDR0DP t p (r 0) (raw r 0) (raw r 1)) p
      simp only [WG112, WG122, DGDR0, D2GDR0DP]
      refine HasDerivAt.congr_deriv (by hd) ?_
      ring
  · intro t p r hr h0 i
    fin_cases i
    · change HasDerivAt (fun t => -(D2GDR0DT t p (r 0) (raw r 0) (raw r 1))) (-t * (D3GDR0DT2 t p (r 0) (raw r 0) (raw r 1)) / t) t
      simp only [D2GDR0DT, D3GDR0DT2]
      refine HasDerivAt.congr_deriv (by hd) ?_
      first | ring | (field_simp; ring)
  · intro t p r hr
    refine grad_of_partials ?_ fun j => partial_of_update ?_
    · simp only [ofSites, F, D2GDP2]; dd
    · fin_cases j
      · change HasDerivAt (fun _ : ℝ => (0 : ℝ)) (0 : ℝ) _
        exact hasDerivAt_const _ _
  · intro t p r hr i j; fin_cases i <;> fin_cases j <;> rfl
  · intro t p r hr i j k; fin_cases i <;> fin_cases j <;> fin_cases k <;> exact ⟨rfl, rfl⟩
  · intro r hr; funext i; fin_cases i <;> rfl

theorem raw_continuous (k : Fin 2) : Continuous fun r => raw r k := by
  fin_cases k
  · change Continuous fun r : Fin 1 → ℝ => r 0
    fun_prop
  · change Continuous fun r : Fin 1 → ℝ => 1 - r 0
    fun_prop

theorem consistent : mix.Consistent (Interior raw) := consistent_clamp F raw raw_continuous consistent_raw

/-- The dependent end member of ilmenite.c. -/
def dep : Fin 2 := 1

end Ilmenite

/-- **C24.** Ilmenite (ilmenite.c): derivatives, entropy, enthalpy, heat capacity and volume of mixing fit together. -/
theorem C24_ilmenite : Ilmenite.mix.Consistent (Interior Ilmenite.raw) := Ilmenite.consistent

/-- The interior contains the composition 1 / 4. -/
example : Interior Ilmenite.raw ![1 / 4] := by
  intro k
  fin_cases k
  · change ((1 / 4) : ℝ) > eps; unfold eps; norm_num
  · change (1 - (1 / 4) : ℝ) > eps; unfold eps; norm_num

/-- **C24.** The chemical potentials `act*` returns are the derivatives of the total Gibbs energy of mixing. -/
theorem C24_ilmenite_potentials (t p : ℝ) (m : Fin 2 → ℝ) (h0 : ∑ i, m i ≠ 0)
    (hr : Interior Ilmenite.raw (toR Ilmenite.dep m)) (i : Fin 2) :
    Partial (fun m => (∑ i, m i) * Ilmenite.mix.g t p (toR Ilmenite.dep m)) m i
      (mu Ilmenite.mix Ilmenite.dep t p (toR Ilmenite.dep m) i) :=
  C24_potential_is_derivative _ _ Ilmenite.consistent _ t p m h0 hr i

/-- **C24.** The derivatives of the activities `act*` returns are their derivatives. -/
theorem C24_ilmenite_activities (t p : ℝ) (r : Fin 1 → ℝ) (hr : Interior Ilmenite.raw r) (i : Fin 2)
    (k : Fin 1) : Partial (fun r => act Ilmenite.mix Ilmenite.dep t p r i) r k (dact Ilmenite.mix Ilmenite.dep t p r i k) :=
  C24_activity_derivative _ _ Ilmenite.consistent (isOpen_interior _ Ilmenite.raw_continuous) _ t p r hr i k

namespace AlloySolid

/-- `BH1`, alloy-solid.c 55. -/
def BH1 : ℝ := -14441

/-- `BH2`, alloy-solid.c 56. -/
def BH2 : ℝ := -9182

/-- `BH3`, alloy-solid.c 57. -/
def BH3 : ℝ := -1520

/-- `BS1`, alloy-solid.c 59. -/
def BS1 : ℝ := -(1631 / 500)

/-- `BS2`, alloy-solid.c 60. -/
def BS2 : ℝ := -(9141 / 2500)

/-- `BS3`, alloy-solid.c 61. -/
def BS3 : ℝ := -(7049 / 5000)

/-- `BG1`, alloy-solid.c 73. -/
def BG1 (t p r0 xni xfe : ℝ) : ℝ :=
  BH1 - t * BS1

/-- `BG2`, alloy-solid.c 74. -/
def BG2 (t p r0 xni xfe : ℝ) : ℝ :=
  BH2 - t * BS2

/-- `BG3`, alloy-solid.c 75. -/
def BG3 (t p r0 xni xfe : ℝ) : ℝ :=
  BH3 - t * BS3

/-- `S`, alloy-solid.c 91-92. -/
def S (t p r0 xni xfe : ℝ) : ℝ :=
  (-R) * (xni * Real.log xni + xfe * Real.log xfe) + xni * xfe * (BS1 + BS2 * (xni - xfe) + BS3 * (xni - xfe)
    * (xni - xfe))

/-- `H`, alloy-solid.c 93. -/
def H (t p r0 xni xfe : ℝ) : ℝ :=
  xni * xfe * (BH1 + BH2 * (xni - xfe) + BH3 * (xni - xfe) * (xni - xfe))

/-- `V`, alloy-solid.c 94. -/
def V (t p r0 xni xfe : ℝ) : ℝ :=
  0

/-- `G`, alloy-solid.c 95. -/
def G (t p r0 xni xfe : ℝ) : ℝ :=
  (H t p r0 xni xfe) - t * (S t p r0 xni xfe) + (p - 1) * (V t p r0 xni xfe)

/-- `DGDR0`, alloy-solid.c 97-99. -/
def DGDR0 (t p r0 xni xfe : ℝ) : ℝ :=
  R * t * (Real.log xni - Real.log xfe) + (xfe - xni) * ((BG1 t p r0 xni xfe) + (BG2 t p r0 xni xfe) * (xni -
    xfe) + (BG3 t p r0 xni xfe) * (xni - xfe) * (xni - xfe)) + xfe * xni * (2 * (BG2 t p r0 xni xfe) + 4 * (BG3
    t p r0 xni xfe) * (xni - xfe))

/-- `DGDP`, alloy-solid.c 101. -/
def DGDP (t p r0 xni xfe : ℝ) : ℝ :=
  (V t p r0 xni xfe)

/-- `D2GDR0R0`, alloy-solid.c 103-106. -/
def D2GDR0R0 (t p r0 xni xfe : ℝ) : ℝ :=
  R * t * (1 / xni + 1 / xfe) - 2 * ((BG1 t p r0 xni xfe) + (BG2 t p r0 xni xfe) * (xni - xfe) + (BG3 t p r0
    xni xfe) * (xni - xfe) * (xni - xfe)) + 2 * (xfe - xni) * (2 * (BG2 t p r0 xni xfe) + 4 * (BG3 t p r0 xni
    xfe) * (xni - xfe)) + xfe * xni * (8 * (BG3 t p r0 xni xfe))

/-- `D2GDR0DT`, alloy-solid.c 107-109. -/
def D2GDR0DT (t p r0 xni xfe : ℝ) : ℝ :=
  R * (Real.log xni - Real.log xfe) - (xfe - xni) * (BS1 + BS2 * (xni - xfe) + BS3 * (xni - xfe) * (xni -
    xfe)) - xfe * xni * (2 * BS2 + 4 * BS3 * (xni - xfe))

/-- `D2GDR0DP`, alloy-solid.c 110. -/
def D2GDR0DP (t p r0 xni xfe : ℝ) : ℝ :=
  0

/-- `D2GDT2`, alloy-solid.c 111. -/
def D2GDT2 (t p r0 xni xfe : ℝ) : ℝ :=
  0

/-- `D2GDTDP`, alloy-solid.c 112. -/
def D2GDTDP (t p r0 xni xfe : ℝ) : ℝ :=
  0

/-- `D2GDP2`, alloy-solid.c 113. -/
def D2GDP2 (t p r0 xni xfe : ℝ) : ℝ :=
  0

/-- `D3GDR0R0R0`, alloy-solid.c 115-118. -/
def D3GDR0R0R0 (t p r0 xni xfe : ℝ) : ℝ :=
  R * t * (1 / xfe ^ 2 - 1 / xni ^ 2) - 6 * (2 * (BG2 t p r0 xni xfe) + 4 * (BG3 t p r0 xni xfe) * (xni -
    xfe)) + 2 * (xfe - xni) * (8 * (BG3 t p r0 xni xfe)) + (xfe - xni) * (8 * (BG3 t p r0 xni xfe))

/-- `D3GDR0R0DT`, alloy-solid.c 119-122. -/
def D3GDR0R0DT (t p r0 xni xfe : ℝ) : ℝ :=
  R * (1 / xni + 1 / xfe) + 2 * (BS1 + BS2 * (xni - xfe) + BS3 * (xni - xfe) * (xni - xfe)) - 2 * (xfe - xni)
    * (2 * BS2 + 4 * BS3 * (xni - xfe)) - xfe * xni * (8 * BS3)

/-- `D3GDR0R0DP`, alloy-solid.c 123. -/
def D3GDR0R0DP (t p r0 xni xfe : ℝ) : ℝ :=
  0

/-- `D3GDT3`, alloy-solid.c 124. -/
def D3GDT3 (t p r0 xni xfe : ℝ) : ℝ :=
  0

/-- `D3GDT2DP`, alloy-solid.c 125. -/
def D3GDT2DP (t p r0 xni xfe : ℝ) : ℝ :=
  0

/-- `D3GDTDP2`, alloy-solid.c 126. -/
def D3GDTDP2 (t p r0 xni xfe : ℝ) : ℝ :=
  0

/-- `D3GDP3`, alloy-solid.c 127. -/
def D3GDP3 (t p r0 xni xfe : ℝ) : ℝ :=
  0

/-- `D3GDR0DT2`, alloy-solid.c 129. -/
def D3GDR0DT2 (t p r0 xni xfe : ℝ) : ℝ :=
  0

/-- `D3GDR0DTDP`, alloy-solid.c 130. -/
def D3GDR0DTDP (t p r0 xni xfe : ℝ) : ℝ :=
  0

/-- `D3GDR0DP2`, alloy-solid.c 131. -/
def D3GDR0DP2 (t p r0 xni xfe : ℝ) : ℝ :=
  0

/-- The macros as the functions of alloy-solid.c use them: `gmix`, `hmix`, `smix`, `cpmix`, `vmix` and `act`. -/
def F (x : Fin 2 → ℝ) : Mix 1 where
  g t p r := G t p (r 0) (x 0) (x 1)
  gr t p r := ![DGDR0 t p (r 0) (x 0) (x 1)]
  grr t p r := ![![D2GDR0R0 t p (r 0) (x 0) (x 1)]]
  grrr t p r := ![![![D3GDR0R0R0 t p (r 0) (x 0) (x 1)]]]
  h t p r := (G t p (r 0) (x 0) (x 1)) + t * (S t p (r 0) (x 0) (x 1))
  s t p r := S t p (r 0) (x 0) (x 1)
  sr t p r := ![-(D2GDR0DT t p (r 0) (x 0) (x 1))]
  srr t p r := ![![-(D3GDR0R0DT t p (r 0) (x 0) (x 1))]]
  cp t p r := -t * (D2GDT2 t p (r 0) (x 0) (x 1))
  cpt t p r := -t * (D3GDT3 t p (r 0) (x 0) (x 1)) - D2GDT2 t p (r 0) (x 0) (x 1)
  cpr t p r := ![-t * (D3GDR0DT2 t p (r 0) (x 0) (x 1))]
  v t p r := DGDP t p (r 0) (x 0) (x 1)
  vr t p r := ![D2GDR0DP t p (r 0) (x 0) (x 1)]
  vrr t p r := ![![D3GDR0R0DP t p (r 0) (x 0) (x 1)]]
  vt t p r := D2GDTDP t p (r 0) (x 0) (x 1)
  vp t p r := D2GDP2 t p (r 0) (x 0) (x 1)
  vtt t p r := D3GDT2DP t p (r 0) (x 0) (x 1)
  vtp t p r := D3GDTDP2 t p (r 0) (x 0) (x 1)
  vpp t p r := D3GDP3 t p (r 0) (x 0) (x 1)
  vrt t p r := ![D3GDR0DTDP t p (r 0) (x 0) (x 1)]
  vrp t p r := ![D3GDR0DP2 t p (r 0) (x 0) (x 1)]
  fx r := ![x 0]

/-- Site fractions before clamping, lines 384 385 466 467 508 509 521 522 of alloy-solid.c. -/
def raw (r : Fin 1 → ℝ) : Fin 2 → ℝ := ![r 0, 1 - r 0]

/-- The phase as coded in alloy-solid.c. -/
def mix : Mix 1 := ofSites F fun r k => clamp (raw r k)

theorem G_d0 (t p r0 : ℝ) (h0 : 0 < r0) (h1 : 0 < 1 - r0) :
    HasDerivAt (fun r0 => G t p r0 r0 (1 - r0)) (DGDR0 t p r0 r0 (1 - r0)) r0 := by
  have n0 := h0.ne'
  have n1 := h1.ne'
  simp only [H, S, V, G, BG1, BG2, BG3, DGDR0]
  refine HasDerivAt.congr_deriv (by hd) ?_
  all_goals first | ring1 | (field_simp; done) | (field_simp; ring1)

theorem G_diff (t p : ℝ) (r : Fin 1 → ℝ) (h0 : 0 < r 0) (h1 : 0 < 1 - r 0) :
    DifferentiableAt ℝ (fun r : Fin 1 → ℝ => G t p (r 0) (r 0) (1 - r 0)) r := by
  have n0 := h0.ne'
  have n1 := h1.ne'
  simp only [H, S, V, G]
  dd

theorem DGDR0_d0 (t p r0 : ℝ) (h0 : 0 < r0) (h1 : 0 < 1 - r0) :
    HasDerivAt (fun r0 => DGDR0 t p r0 r0 (1 - r0)) (D2GDR0R0 t p r0 r0 (1 - r0)) r0 := by
  have n0 := h0.ne'
  have n1 := h1.ne'
  simp only [BG1, BG2, BG3, DGDR0, D2GDR0R0]
  refine HasDerivAt.congr_deriv (by hd) ?_
  all_goals first | ring1 | (field_simp; done) | (field_simp; ring1)

theorem DGDR0_diff (t p : ℝ) (r : Fin 1 → ℝ) (h0 : 0 < r 0) (h1 : 0 < 1 - r 0) :
    DifferentiableAt ℝ (fun r : Fin 1 → ℝ => DGDR0 t p (r 0) (r 0) (1 - r 0)) r := by
  have n0 := h0.ne'
  have n1 := h1.ne'
  simp only [BG1, BG2, BG3, DGDR0]
  dd

theorem D2GDR0R0_d0 (t p r0 : ℝ) (h0 : 0 < r0) (h1 : 0 < 1 - r0) :
    HasDerivAt (fun r0 => D2GDR0R0 t p r0 r0 (1 - r0)) (D3GDR0R0R0 t p r0 r0 (1 - r0)) r0 := by
  have n0 := h0.ne'
  have n1 := h1.ne'
  simp only [BG1, BG2, BG3, D2GDR0R0, D3GDR0R0R0]
  refine HasDerivAt.congr_deriv (by hd) ?_
  all_goals first | ring1 | (field_simp; done) | (field_simp; ring1)

theorem D2GDR0R0_diff (t p : ℝ) (r : Fin 1 → ℝ) (h0 : 0 < r 0) (h1 : 0 < 1 - r 0) :
    DifferentiableAt ℝ (fun r : Fin 1 → ℝ => D2GDR0R0 t p (r 0) (r 0) (1 - r 0)) r := by
  have n0 := h0.ne'
  have n1 := h1.ne'
  simp only [BG1, BG2, BG3, D2GDR0R0]
  dd

theorem S_d0 (t p r0 : ℝ) (h0 : 0 < r0) (h1 : 0 < 1 - r0) :
    HasDerivAt (fun r0 => S t p r0 r0 (1 - r0)) (-(D2GDR0DT t p r0 r0 (1 - r0))) r0 := by
  have n0 := h0.ne'
  have n1 := h1.ne'
  simp only [S, D2GDR0DT]
  refine HasDerivAt.congr_deriv (by hd) ?_
  all_goals first | ring1 | (field_simp; done) | (field_simp; ring1)

theorem S_diff (t p : ℝ) (r : Fin 1 → ℝ) (h0 : 0 < r 0) (h1 : 0 < 1 - r 0) :
    DifferentiableAt ℝ (fun r : Fin 1 → ℝ => S t p (r 0) (r 0) (1 - r 0)) r := by
  have n0 := h0.ne'
  have n1 := h1.ne'
  simp only [S]
  dd

theorem D2GDR0DT_d0 (t p r0 : ℝ) (h0 : 0 < r0) (h1 : 0 < 1 - r0) :
    HasDerivAt (fun r0 => D2GDR0DT t p r0 r0 (1 - r0)) (D3GDR0R0DT t p r0 r0 (1 - r0)) r0 := by
  have n0 := h0.ne'
  have n1 := h1.ne'
  simp only [D2GDR0DT, D3GDR0R0DT]
  refine HasDerivAt.congr_deriv (by hd) ?_
  all_goals first | ring1 | (field_simp; done) | (field_simp; ring1)

theorem D2GDR0DT_diff (t p : ℝ) (r : Fin 1 → ℝ) (h0 : 0 < r 0) (h1 : 0 < 1 - r 0) :
    DifferentiableAt ℝ (fun r : Fin 1 → ℝ => D2GDR0DT t p (r 0) (r 0) (1 - r 0)) r := by
  have n0 := h0.ne'
  have n1 := h1.ne'
  simp only [D2GDR0DT]
  dd

theorem DGDP_d0 (t p r0 : ℝ) (h0 : 0 < r0) (h1 : 0 < 1 - r0) :
    HasDerivAt (fun r0 => DGDP t p r0 r0 (1 - r0)) (D2GDR0DP t p r0 r0 (1 - r0)) r0 := by
  have n0 := h0.ne'
  have n1 := h1.ne'
  simp only [V, DGDP, D2GDR0DP]
  refine HasDerivAt.congr_deriv (by hd) ?_
  all_goals first | ring1 | (field_simp; done) | (field_simp; ring1)

theorem DGDP_diff (t p : ℝ) (r : Fin 1 → ℝ) (h0 : 0 < r 0) (h1 : 0 < 1 - r 0) :
    DifferentiableAt ℝ (fun r : Fin 1 → ℝ => DGDP t p (r 0) (r 0) (1 - r 0)) r := by
  have n0 := h0.ne'
  have n1 := h1.ne'
  simp only [V, DGDP]
  dd

theorem D2GDR0DP_d0 (t p r0 : ℝ) (h0 : 0 < r0) (h1 : 0 < 1 - r0) :
    HasDerivAt (fun r0 => D2GDR0DP t p r0 r0 (1 - r0)) (D3GDR0R0DP t p r0 r0 (1 - r0)) r0 := by
  have n0 := h0.ne'
  have n1 := h1.ne'
  simp only [D2GDR0DP, D3GDR0R0DP]
  refine HasDerivAt.congr_deriv (by hd) ?_
  all_goals first | ring1 | (field_simp; done) | (field_simp; ring1)

theorem D2GDR0DP_diff (t p : ℝ) (r : Fin 1 → ℝ) (h0 : 0 < r 0) (h1 : 0 < 1 - r 0) :
    DifferentiableAt ℝ (fun r : Fin 1 → ℝ => D2GDR0DP t p (r 0) (r 0) (1 - r 0)) r := by
  have n0 := h0.ne'
  have n1 := h1.ne'
  simp only [D2GDR0DP]
  dd

set_option maxHeartbeats 1600000 in
theorem consistent_raw : (ofSites F raw).Consistent (Interior raw) := by
  have posr : ∀ r, Interior raw r → ∀ k, 0 < raw r k := fun r hr k => lt_trans eps_pos (hr k)
  constructor
  · intro t p r hr
    have pos := posr r hr
    refine grad_of_partials (G_diff t p r (pos 0) (pos 1)) fun j => partial_of_update ?_
    fin_cases j
    · exact (G_d0 t p (r 0) (pos 0) (pos 1))
  · intro t p r hr i
    have pos := posr r hr
    fin_cases i
    · skip
      refine grad_of_partials (DGDR0_diff t p r (pos 0) (pos 1)) fun j => partial_of_update ?_
      fin_cases j
      · exact (DGDR0_d0 t p (r 0) (pos 0) (pos 1))
  · intro t p r hr i j
    have pos := posr r hr
    fin_cases i <;> fin_cases j
    · skip
      refine grad_of_partials (D2GDR0R0_diff t p r (pos 0) (pos 1)) fun j => partial_of_update ?_
      fin_cases j
      · exact (D2GDR0R0_d0 t p (r 0) (pos 0) (pos 1))
  · intro t p r hr
    simp only [ofSites, F, H, S, V, G]
    refine HasDerivAt.congr_deriv (by hd) ?_
    ring
  · intro t p r hr; rfl
  · intro t p r hr
    have pos := posr r hr
    refine grad_of_partials (S_diff t p r (pos 0) (pos 1)) fun j => partial_of_update ?_
    fin_cases j
    · exact S_d0 t p (r 0) (pos 0) (pos 1)
  · intro t p r hr i
    have pos := posr r hr
    fin_cases i
    · skip
      refine grad_of_partials ((D2GDR0DT_diff t p r (pos 0) (pos 1)).fun_neg) fun j => partial_of_update ?_
      fin_cases j
      · exact ((D2GDR0DT_d0 t p (r 0) (pos 0) (pos 1))).fun_neg
  · intro t p r hr
    simp only [ofSites, F, H, S, V, G, D2GDT2]
    refine HasDerivAt.congr_deriv (by hd) ?_
    ring
  · intro t p r hr
    simp only [ofSites, F, D2GDT2, D3GDT3]
    refine HasDerivAt.congr_deriv (by hd) ?_
    ring
  · intro t p r hr
    refine grad_of_partials ?_ fun j => partial_of_update ?_
    · simp only [ofSites, F, D2GDT2]; dd
    · fin_cases j
      · change HasDerivAt (fun _ : ℝ => -t * (0 : ℝ)) (-t * (0 : ℝ)) _
        exact (hasDerivAt_const _ _).congr_deriv (by ring)
  · intro t p r hr
    simp only [ofSites, F, H, S, V, G, DGDP]
    refine HasDerivAt.congr_deriv (by hd) ?_
    ring
  · intro t p r hr
    have pos := posr r hr
    refine grad_of_partials (DGDP_diff t p r (pos 0) (pos 1)) fun j => partial_of_update ?_
    fin_cases j
    · exact (DGDP_d0 t p (r 0) (pos 0) (pos 1))
  · intro t p r hr i
    have pos := posr r hr
    fin_cases i
    · skip
      refine grad_of_partials (D2GDR0DP_diff t p r (pos 0) (pos 1)) fun j => partial_of_update ?_
      fin_cases j
      · exact (D2GDR0DP_d0 t p (r 0) (pos 0) (pos 1))
  · intro t p r hr
    simp only [ofSites, F, V, DGDP, D2GDTDP]
    refine HasDerivAt.congr_deriv (by hd) ?_
    ring
  · intro t p r hr
    simp only [ofSites, F, V, DGDP, D2GDP2]
    refine HasDerivAt.congr_deriv (by hd) ?_
    ring
  · intro t p r hr
    simp only [ofSites, F, D2GDTDP, D3GDT2DP]
    refine HasDerivAt.congr_deriv (by hd) ?_
    ring
  · intro t p r hr
    simp only [ofSites, F, D2GDTDP, D3GDTDP2]
    refine HasDerivAt.congr_deriv (by hd) ?_
    ring
  · intro t p r hr
    simp only [ofSites, F, D2GDP2, D3GDP3]
    refine HasDerivAt.congr_deriv (by hd) ?_
    ring
  · intro t p r hr i
    fin_cases i
    · change HasDerivAt (fun t => D2GDR0DP t p (r 0) (raw r 0) (raw r 1)) (D3GDR0DTDP t p (r 0) (raw r 0) (raw r 1)) t
      simp only [D2GDR0DP, D3GDR0DTDP]
      refine HasDerivAt.congr_deriv (by hd) ?_
      ring
  · intro t p r hr i
    fin_cases i
    · change HasDerivAt (fun p => D2GDR0DP t p (r 0) (raw r 0) (raw r 1)) (D3GDR0DP2 t p (r 0) (raw r 0) (raw r 1)) p
      simp only [D2GDR0DP, D3GDR0DP2]
      refine HasDerivAt.congr_deriv (by hd) ?_
      ring
  · intro t p r hr i
    fin_cases i
    · change HasDerivAt (fun t => DGDR0 t p (r 0) (raw r 0) (raw r 1)) (-(-(D2GDR0DT t p (r 0) (raw r 0) (raw r 1)))) t
      simp only [BG1, BG2, BG3, DGDR0, D2GDR0DT]
      refine HasDerivAt.congr_deriv (by hd) ?_
      ring
  · intro t p r hr i
    fin_cases i
    · change HasDerivAt (fun p => DGDR0 t p (r 0) (raw r 0) (raw r 1)) (D2GDR0DP t p (r 0) (raw r 0) (raw r 1)) p
      simp only [BG1, BG2, BG3, DGDR0, D2GDR0DP]
      refine HasDerivAt.congr_deriv (by hd) ?_
      ring
  · intro t p r hr h0 i
    fin_cases i
    · change HasDerivAt (fun t => -(D2GDR0DT t p (r 0) (raw r 0) (raw r 1))) (-t * (D3GDR0DT2 t p (r 0) (raw r 0) (raw r 1)) / t) t
      simp only [D2GDR0DT, D3GDR0DT2]
      refine HasDerivAt.congr_deriv (by hd) ?_
      first | ring | (field_simp; ring)
  · intro t p r hr
    refine grad_of_partials ?_ fun j => partial_of_update ?_
    · simp only [ofSites, F, D2GDP2]; dd
    · fin_cases j
      · change HasDerivAt (fun _ : ℝ => (0 : ℝ)) (0 : ℝ) _
        exact hasDerivAt_const _ _
  · intro t p r hr i j; fin_cases i <;> fin_cases j <;> rfl
  · intro t p r hr i j k; fin_cases i <;> fin_cases j <;> fin_cases k <;> exact ⟨rfl, rfl⟩
  · intro r hr; funext i; fin_cases i <;> rfl

theorem raw_continuous (k : Fin 2) : Continuous fun r => raw r k := by
  fin_cases k
  · change Continuous fun r : Fin 1 → ℝ => r 0
    fun_prop
  · change Continuous fun r : Fin 1 → ℝ => 1 - r 0
    fun_prop

theorem consistent : mix.Consistent (Interior raw) := consistent_clamp F raw raw_continuous consistent_raw

/-- The dependent end member of alloy-solid.c. -/
def dep : Fin 2 := 0

end AlloySolid

/-- **C24.** AlloySolid (alloy-solid.c): derivatives, entropy, enthalpy, heat capacity and volume of mixing fit together. -/
theorem C24_alloySolid : AlloySolid.mix.Consistent (Interior AlloySolid.raw) := AlloySolid.consistent

/-- The interior contains the composition 1 / 4. -/
example : Interior AlloySolid.raw ![1 / 4] := by
  intro k
  fin_cases k
  · change ((1 / 4) : ℝ) > eps; unfold eps; norm_num
  · change (1 - (1 / 4) : ℝ) > eps; unfold eps; norm_num

/-- **C24.** The chemical potentials `act*` returns are the derivatives of the total Gibbs energy of mixing. -/
theorem C24_alloySolid_potentials (t p : ℝ) (m : Fin 2 → ℝ) (h0 : ∑ i, m i ≠ 0)
    (hr : Interior AlloySolid.raw (toR AlloySolid.dep m)) (i : Fin 2) :
    Partial (fun m => (∑ i, m i) * AlloySolid.mix.g t p (toR AlloySolid.dep m)) m i
      (mu AlloySolid.mix AlloySolid.dep t p (toR AlloySolid.dep m) i) :=
  C24_potential_is_derivative _ _ AlloySolid.consistent _ t p m h0 hr i

/-- **C24.** The derivatives of the activities `act*` returns are their derivatives. -/
theorem C24_alloySolid_activities (t p : ℝ) (r : Fin 1 → ℝ) (hr : Interior AlloySolid.raw r) (i : Fin 2)
    (k : Fin 1) : Partial (fun r => act AlloySolid.mix AlloySolid.dep t p r i) r k (dact AlloySolid.mix AlloySolid.dep t p r i k) :=
  C24_activity_derivative _ _ AlloySolid.consistent (isOpen_interior _ AlloySolid.raw_continuous) _ t p r hr i k

namespace AlloyLiquid

/-- `BH1`, alloy-liquid.c 56. -/
def BH1 : ℝ := -17769

/-- `BH2`, alloy-liquid.c 57. -/
def BH2 : ℝ := -8942

/-- `BH3`, alloy-liquid.c 58. -/
def BH3 : ℝ := -1460

/-- `BS1`, alloy-liquid.c 60. -/
def BS1 : ℝ := -(20969 / 5000)

/-- `BS2`, alloy-liquid.c 61. -/
def BS2 : ℝ := -(4241 / 1250)

/-- `BS3`, alloy-liquid.c 62. -/
def BS3 : ℝ := -(3903 / 5000)

/-- `BG1`, alloy-liquid.c 64. -/
def BG1 (t p r0 xni xfe : ℝ) : ℝ :=
  BH1 - t * BS1

/-- `BG2`, alloy-liquid.c 65. -/
def BG2 (t p r0 xni xfe : ℝ) : ℝ :=
  BH2 - t * BS2

/-- `BG3`, alloy-liquid.c 66. -/
def BG3 (t p r0 xni xfe : ℝ) : ℝ :=
  BH3 - t * BS3

/-- `S`, alloy-liquid.c 82-83. -/
def S (t p r0 xni xfe : ℝ) : ℝ :=
  (-R) * (xni * Real.log xni + xfe * Real.log xfe) + xni * xfe * (BS1 + BS2 * (xni - xfe) + BS3 * (xni - xfe)
    * (xni - xfe))

/-- `H`, alloy-liquid.c 84. -/
def H (t p r0 xni xfe : ℝ) : ℝ :=
  xni * xfe * (BH1 + BH2 * (xni - xfe) + BH3 * (xni - xfe) * (xni - xfe))

/-- `V`, alloy-liquid.c 85. -/
def V (t p r0 xni xfe : ℝ) : ℝ :=
  0

/-- `G`, alloy-liquid.c 86. -/
def G (t p r0 xni xfe : ℝ) : ℝ :=
  (H t p r0 xni xfe) - t * (S t p r0 xni xfe) + (p - 1) * (V t p r0 xni xfe)

/-- `DGDR0`, alloy-liquid.c 88-90. -/
def DGDR0 (t p r0 xni xfe : ℝ) : ℝ :=
  R * t * (Real.log xni - Real.log xfe) + (xfe - xni) * ((BG1 t p r0 xni xfe) + (BG2 t p r0 xni xfe) * (xni -
    xfe) + (BG3 t p r0 xni xfe) * (xni - xfe) * (xni - xfe)) + xfe * xni * (2 * (BG2 t p r0 xni xfe) + 4 * (BG3
    t p r0 xni xfe) * (xni - xfe))

/-- `DGDP`, alloy-liquid.c 92. -/
def DGDP (t p r0 xni xfe : ℝ) : ℝ :=
  (V t p r0 xni xfe)

/-- `D2GDR0R0`, alloy-liquid.c 94-97. -/
def D2GDR0R0 (t p r0 xni xfe : ℝ) : ℝ :=
  R * t * (1 / xni + 1 / xfe) - 2 * ((BG1 t p r0 xni xfe) + (BG2 t p r0 xni xfe) * (xni - xfe) + (BG3 t p r0
    xni xfe) * (xni - xfe) * (xni - xfe)) + 2 * (xfe - xni) * (2 * (BG2 t p r0 xni xfe) + 4 * (BG3 t p r0 xni
    xfe) * (xni - xfe)) + xfe * xni * (8 * (BG3 t p r0 xni xfe))

/-- `D2GDR0DT`, alloy-liquid.c 98-100. -/
def D2GDR0DT (t p r0 xni xfe : ℝ) : ℝ :=
  R * (Real.log xni - Real.log xfe) - (xfe - xni) * (BS1 + BS2 * (xni - xfe) + BS3 * (xni - xfe) * (xni -
    xfe)) - xfe * xni * (2 * BS2 + 4 * BS3 * (xni - xfe))

/-- `D2GDR0DP`, alloy-liquid.c 101. -/
def D2GDR0DP (t p r0 xni xfe : ℝ) : ℝ :=
  0

/-- `D2GDT2`, alloy-liquid.c 102. -/
def D2GDT2 (t p r0 xni xfe : ℝ) : ℝ :=
  0

/-- `D2GDTDP`, alloy-liquid.c 103. -/
def D2GDTDP (t p r0 xni xfe : ℝ) : ℝ :=
  0

/-- `D2GDP2`, alloy-liquid.c 104. -/
def D2GDP2 (t p r0 xni xfe : ℝ) : ℝ :=
  0

/-- `D3GDR0R0R0`, alloy-liquid.c 106-109. -/
def D3GDR0R0R0 (t p r0 xni xfe : ℝ) : ℝ :=
  R * t * (1 / xfe ^ 2 - 1 / xni ^ 2) - 6 * (2 * (BG2 t p r0 xni xfe) + 4 * (BG3 t p r0 xni xfe) * (xni -
    xfe)) + 2 * (xfe - xni) * (8 * (BG3 t p r0 xni xfe)) + (xfe - xni) * (8 * (BG3 t p r0 xni xfe))

/-- `D3GDR0R0DT`, alloy-liquid.c 110-113. -/
def D3GDR0R0DT (t p r0 xni xfe : ℝ) : ℝ :=
  R * (1 / xni + 1 / xfe) + 2 * (BS1 + BS2 * (xni - xfe) + BS3 * (xni - xfe) * (xni - xfe)) - 2 * (xfe - xni)
    * (2 * BS2 + 4 * BS3 * (xni - xfe)) - xfe * xni * (8 * BS3)

/-- `D3GDR0R0DP`, alloy-liquid.c 114. -/
def D3GDR0R0DP (t p r0 xni xfe : ℝ) : ℝ :=
  0

/-- `D3GDT3`, alloy-liquid.c 115. -/
def D3GDT3 (t p r0 xni xfe : ℝ) : ℝ :=
  0

/-- `D3GDT2DP`, alloy-liquid.c 116. -/
def D3GDT2DP (t p r0 xni xfe : ℝ) : ℝ :=
  0

/-- `D3GDTDP2`, alloy-liquid.c 117. -/
def D3GDTDP2 (t p r0 xni xfe : ℝ) : ℝ :=
  0

/-- `D3GDP3`, alloy-liquid.c 118. -/
def D3GDP3 (t p r0 xni xfe : ℝ) : ℝ :=
  0

/-- `D3GDR0DT2`, alloy-liquid.c 120. -/
def D3GDR0DT2 (t p r0 xni xfe : ℝ) : ℝ :=
  0

/-- `D3GDR0DTDP`, alloy-liquid.c 121. -/
def D3GDR0DTDP (t p r0 xni xfe : ℝ) : ℝ :=
  0

/-- `D3GDR0DP2`, alloy-liquid.c 122. -/
def D3GDR0DP2 (t p r0 xni xfe : ℝ) : ℝ :=
  0

/-- The macros as the functions of alloy-liquid.c use them: `gmix`, `hmix`, `smix`, `cpmix`, `vmix` and `act`. -/
def F (x : Fin 2 → ℝ) : Mix 1 where
  g t p r := G t p (r 0) (x 0) (x 1)
  gr t p r := ![DGDR0 t p (r 0) (x 0) (x 1)]
  grr t p r := ![![D2GDR0R0 t p (r 0) (x 0) (x 1)]]
  grrr t p r := ![![![D3GDR0R0R0 t p (r 0) (x 0) (x 1)]]]
  h t p r := (G t p (r 0) (x 0) (x 1)) + t * (S t p (r 0) (x 0) (x 1))
  s t p r := S t p (r 0) (x 0) (x 1)
  sr t p r := ![-(D2GDR0DT t p (r 0) (x 0) (x 1))]
  srr t p r := ![![-(D3GDR0R0DT t p (r 0) (x 0) (x 1))]]
  cp t p r := -t * (D2GDT2 t p (r 0) (x 0) (x 1))
  cpt t p r := -t * (D3GDT3 t p (r 0) (x 0) (x 1)) - D2GDT2 t p (r 0) (x 0) (x 1)
  cpr t p r := ![-t * (D3GDR0DT2 t p (r 0) (x 0) (x 1))]
  v t p r := DGDP t p (r 0) (x 0) (x 1)
  vr t p r := ![D2GDR0DP t p (r 0) (x 0) (x 1)]
  vrr t p r := ![![D3GDR0R0DP t p (r 0) (x 0) (x 1)]]
  vt t p r := D2GDTDP t p (r 0) (x 0) (x 1)
  vp t p r := D2GDP2 t p (r 0) (x 0) (x 1)
  vtt t p r := D3GDT2DP t p (r 0) (x 0) (x 1)
  vtp t p r := D3GDTDP2 t p (r 0) (x 0) (x 1)
  vpp t p r := D3GDP3 t p (r 0) (x 0) (x 1)
  vrt t p r := ![D3GDR0DTDP t p (r 0) (x 0) (x 1)]
  vrp t p r := ![D3GDR0DP2 t p (r 0) (x 0) (x 1)]
  fx r := ![x 0]

/-- Site fractions before clamping, lines 375 376 457 458 499 500 512 513 of alloy-liquid.c. -/
def raw (r : Fin 1 → ℝ) : Fin 2 → ℝ := ![r 0, 1 - r 0]

/-- The phase as coded in alloy-liquid.c. -/
def mix : Mix 1 := ofSites F fun r k => clamp (raw r k)

theorem G_d0 (t p r0 : ℝ) (h0 : 0 < r0) (h1 : 0 < 1 - r0) :
    HasDerivAt (fun r0 => G t p r0 r0 (1 - r0)) (DGDR0 t p r0 r0 (1 - r0)) r0 := by
  have n0 := h0.ne'
  have n1 := h1.ne'
  simp only [H, S, V, G, BG1, BG2, BG3, DGDR0]
  refine HasDerivAt.congr_deriv (by hd) ?_
  all_goals first | ring1 | (field_simp; done) | (field_simp; ring1)

theorem G_diff (t p : ℝ) (r : Fin 1 → ℝ) (h0 : 0 < r 0) (h1 : 0 < 1 - r 0) :
    DifferentiableAt ℝ (fun r : Fin 1 → ℝ => G t p (r 0) (r 0) (1 - r 0)) r := by
  have n0 := h0.ne'
  have n1 := h1.ne'
  simp only [H, S, V, G]
  dd

theorem DGDR0_d0 (t p r0 : ℝ) (h0 : 0 < r0) (h1 : 0 < 1 - r0) :
    HasDerivAt (fun r0 => DGDR0 t p r0 r0 (1 - r0)) (D2GDR0R0 t p r0 r0 (1 - r0)) r0 := by
  have n0 := h0.ne'
  have n1 := h1.ne'
  simp only [BG1, BG2, BG3, DGDR0, D2GDR0R0]
  refine HasDerivAt.congr_deriv (by hd) ?_
  all_goals first | ring1 | (field_simp; done) | (field_simp; ring1)

theorem DGDR0_diff (t p : ℝ) (r : Fin 1 → ℝ) (h0 : 0 < r 0) (h1 : 0 < 1 - r 0) :
    DifferentiableAt ℝ (fun r : Fin 1 → ℝ => DGDR0 t p (r 0) (r 0) (1 - r 0)) r := by
  have n0 := h0.ne'
  have n1 := h1.ne'
  simp only [BG1, BG2, BG3, DGDR0]
  dd

theorem D2GDR0R0_d0 (t p r0 : ℝ) (h0 : 0 < r0) (h1 : 0 < 1 - r0) :
    HasDerivAt (fun r0 => D2GDR0R0 t p r0 r0 (1 - r0)) (D3GDR0R0R0 t p r0 r0 (1 - r0)) r0 := by
  have n0 := h0.ne'
  have n1 := h1.ne'
  simp only [BG1, BG2, BG3, D2GDR0R0, D3GDR0R0R0]
  refine HasDerivAt.congr_deriv (by hd) ?_
  all_goals first | ring1 | (field_simp; done) | (field_simp; ring1)

theorem D2GDR0R0_diff (t p : ℝ) (r : Fin 1 → ℝ) (h0 : 0 < r 0) (h1 : 0 < 1 - r 0) :
    DifferentiableAt ℝ (fun r : Fin 1 → ℝ => D2GDR0R0 t p (r 0) (r 0) (1 - r 0)) r := by
  have n0 := h0.ne'
  have n1 := h1.ne'
  simp only [BG1, BG2, BG3, D2GDR0R0]
  dd

theorem S_d0 (t p r0 : ℝ) (h0 : 0 < r0) (h1 : 0 < 1 - r0) :
    HasDerivAt (fun r0 => S t p r0 r0 (1 - r0)) (-(D2GDR0DT t p r0 r0 (1 - r0))) r0 := by
  have n0 := h0.ne'
  have n1 := h1.ne'
  simp only [S, D2GDR0DT]
  refine HasDerivAt.congr_deriv (by hd) ?_
  all_goals first | ring1 | (field_simp; done) | (field_simp; ring1)

theorem S_diff (t p : ℝ) (r : Fin 1 → ℝ) (h0 : 0 < r 0) (h1 : 0 < 1 - r 0) :
    DifferentiableAt ℝ (fun r : Fin 1 → ℝ => S t p (r 0) (r 0) (1 - r 0)) r := by
  have n0 := h0.ne'
  have n1 := h1.ne'
  simp only [S]
  dd

theorem D2GDR0DT_d0 (t p r0 : ℝ) (h0 : 0 < r0) (h1 : 0 < 1 - r0) :
    HasDerivAt (fun r0 => D2GDR0DT t p r0 r0 (1 - r0)) (D3GDR0R0DT t p r0 r0 (1 - r0)) r0 := by
  have n0 := h0.ne'
  have n1 := h1.ne'
  simp only [D2GDR0DT, D3GDR0R0DT]
  refine HasDerivAt.congr_deriv (by hd) ?_
  all_goals first | ring1 | (field_simp; done) | (field_simp; ring1)

theorem D2GDR0DT_diff (t p : ℝ) (r : Fin 1 → ℝ) (h0 : 0 < r 0) (h1 : 0 < 1 - r 0) :
    DifferentiableAt ℝ (fun r : Fin 1 → ℝ => D2GDR0DT t p (r 0) (r 0) (1 - r 0)) r := by
  have n0 := h0.ne'
  have n1 := h1.ne'
  simp only [D2GDR0DT]
  dd

theorem DGDP_d0 (t p r0 : ℝ) (h0 : 0 < r0) (h1 : 0 < 1 - r0) :
    HasDerivAt (fun r0 => DGDP t p r0 r0 (1 - r0)) (D2GDR0DP t p r0 r0 (1 - r0)) r0 := by
  have n0 := h0.ne'
  have n1 := h1.ne'
  simp only [V, DGDP, D2GDR0DP]
  refine HasDerivAt.congr_deriv (by hd) ?_
  all_goals first | ring1 | (field_simp; done) | (field_simp; ring1)

theorem DGDP_diff (t p : ℝ) (r : Fin 1 → ℝ) (h0 : 0 < r 0) (h1 : 0 < 1 - r 0) :
    DifferentiableAt ℝ (fun r : Fin 1 → ℝ => DGDP t p (r 0) (r 0) (1 - r 0)) r := by
  have n0 := h0.ne'
  have n1 := h1.ne'
  simp only [V, DGDP]
  dd

theorem D2GDR0DP_d0 (t p r0 : ℝ) (h0 : 0 < r0) (h1 : 0 < 1 - r0) :
    HasDerivAt (fun r0 => D2GDR0DP t p r0 r0 (1 - r0)) (D3GDR0R0DP t p r0 r0 (1 - r0)) r0 := by
  have n0 := h0.ne'
  have n1 := h1.ne'
  simp only [D2GDR0DP, D3GDR0R0DP]
  refine HasDerivAt.congr_deriv (by hd) ?_
  all_goals first | ring1 | (field_simp; done) | (field_simp; ring1)

theorem D2GDR0DP_diff (t p : ℝ) (r : Fin 1 → ℝ) (h0 : 0 < r 0) (h1 : 0 < 1 - r 0) :
    DifferentiableAt ℝ (fun r : Fin 1 → ℝ => D2GDR0DP t p (r 0) (r 0) (1 - r 0)) r := by
  have n0 := h0.ne'
  have n1 := h1.ne'
  simp only [D2GDR0DP]
  dd

set_option maxHeartbeats 1600000 in
theorem consistent_raw : (ofSites F raw).Consistent (Interior raw) := by
  have posr : ∀ r, Interior raw r → ∀ k, 0 < raw r k := fun r hr k => lt_trans eps_pos (hr k)
  constructor
  · intro t p r hr
    have pos := posr r hr
    refine grad_of_partials (G_diff t p r (pos 0) (pos 1)) fun j => partial_of_update ?_
    fin_cases j
    · exact (G_d0 t p (r 0) (pos 0) (pos 1))
  · intro t p r hr i
    have pos := posr r hr
    fin_cases i
    · skip
      refine grad_of_partials (DGDR0_diff t p r (pos 0) (pos 1)) fun j => partial_of_update ?_
      fin_cases j
      · exact (DGDR0_d0 t p (r 0) (pos 0) (pos 1))
  · intro t p r hr i j
    have pos := posr r hr
    fin_cases i <;> fin_cases j
    · skip
      refine grad_of_partials (D2GDR0R0_diff t p r (pos 0) (pos 1)) fun j => partial_of_update ?_
      fin_cases j
      · exact (D2GDR0R0_d0 t p (r 0) (pos 0) (pos 1))
  · intro t p r hr
    simp only [ofSites, F, H, S, V, G]
    refine HasDerivAt.congr_deriv (by hd) ?_
    ring
  · intro t p r hr; rfl
  · intro t p r hr
    have pos := posr r hr
    refine grad_of_partials (S_diff t p r (pos 0) (pos 1)) fun j => partial_of_update ?_
    fin_cases j
    · exact S_d0 t p (r 0) (pos 0) (pos 1)
  · intro t p r hr i
    have pos := posr r hr
    fin_cases i
    · skip
      refine grad_of_partials ((D2GDR0DT_diff t p r (pos 0) (pos 1)).fun_neg) fun j => partial_of_update ?_
      fin_cases j
      · exact ((D2GDR0DT_d0 t p (r 0) (pos 0) (pos 1))).fun_neg
  · intro t p r hr
    simp only [ofSites, F, H, S, V, G, D2GDT2]
    refine HasDerivAt.congr_deriv (by hd) ?_
    ring
  · intro t p r hr
    simp only [ofSites, F, D2GDT2, D3GDT3]
    refine HasDerivAt.congr_deriv (by hd) ?_
    ring
  · intro t p r hr
    refine grad_of_partials ?_ fun j => partial_of_update ?_
    · simp only [ofSites, F, D2GDT2]; dd
    · fin_cases j
      · change HasDerivAt (fun _ : ℝ => -t * (0 : ℝ)) (-t * (0 : ℝ)) _
        exact (hasDerivAt_const _ _).congr_deriv (by ring)
  · intro t p r hr
    simp only [ofSites, F, H, S, V, G, DGDP]
    refine HasDerivAt.congr_deriv (by hd) ?_
    ring
  · intro t p r hr
    have pos := posr r hr
    refine grad_of_partials (DGDP_diff t p r (pos 0) (pos 1)) fun j => partial_of_update ?_
    fin_cases j
    · exact (DGDP_d0 t p (r 0) (pos 0) (pos 1))
  · intro t p r hr i
    have pos := posr r hr
    fin_cases i
    · skip
      refine grad_of_partials (D2GDR0DP_diff t p r (pos 0) (pos 1)) fun j => partial_of_update ?_
      fin_cases j
      · exact (D2GDR0DP_d0 t p (r 0) (pos 0) (pos 1))
  · intro t p r hr
    simp only [ofSites, F, V, DGDP, D2GDTDP]
    refine HasDerivAt.congr_deriv (by hd) ?_
    ring
  · intro t p r hr
    simp only [ofSites, F, V, DGDP, D2GDP2]
    refine HasDerivAt.congr_deriv (by hd) ?_
    ring
  · intro t p r hr
    simp only [ofSites, F, D2GDTDP, D3GDT2DP]
    refine HasDerivAt.congr_deriv (by hd) ?_
    ring
  · intro t p r hr
    simp only [ofSites, F, D2GDTDP, D3GDTDP2]
    refine HasDerivAt.congr_deriv (by hd) ?_
    ring
  · intro t p r hr
    simp only [ofSites, F, D2GDP2, D3GDP3]
    refine HasDerivAt.congr_deriv (by hd) ?_
    ring
  · intro t p r hr i
    fin_cases i
    · change HasDerivAt (fun t => D2GDR0DP t p (r 0) (raw r 0) (raw r 1)) (D3GDR0DTDP t p (r 0) (raw r 0) (raw r 1)) t
      simp only [D2GDR0DP, D3GDR0DTDP]
      refine HasDerivAt.congr_deriv (by hd) ?_
      ring
  · intro t p r hr i
    fin_cases i
    · change HasDerivAt (fun p => D2GDR0DP t p (r 0) (raw r 0) (raw r 1)) (D3GDR0DP2 t p (r 0) (raw r 0) (raw r 1)) p
      simp only [D2GDR0DP, D3GDR0DP2]
      refine HasDerivAt.congr_deriv (by hd) ?_
      ring
  · intro t p r hr i
    fin_cases i
    · change HasDerivAt (fun t => DGDR0 t p (r 0) (raw r 0) (raw r 1)) (-(-(D2GDR0DT t p (r 0) (raw r 0) (raw r 1)))) t
      simp only [BG1, BG2, BG3, DGDR0, D2GDR0DT]
      refine HasDerivAt.congr_deriv (by hd) ?_
      ring
  · intro t p r hr i
    fin_cases i
    · change HasDerivAt (fun p => DGDR0 t p (r 0) (raw r 0) (raw r 1)) (D2GDR0DP t p (r 0) (raw r 0) (raw r 1)) p
      simp only [BG1, BG2, BG3, DGDR0, D2GDR0DP]
      refine HasDerivAt.congr_deriv (by hd) ?_
      ring
  · intro t p r hr h0 i
    fin_cases i
    · change HasDerivAt (fun t => -(D2GDR0DT t p (r 0) (raw r 0) (raw r 1))) (-t * (D3GDR0DT2 t p (r 0) (raw r 0) (raw r 1)) / t) t
      simp only [D2GDR0DT, D3GDR0DT2]
      refine HasDerivAt.congr_deriv (by hd) ?_
      first | ring | (field_simp; ring)
  · intro t p r hr
    refine grad_of_partials ?_ fun j => partial_of_update ?_
    · simp only [ofSites, F, D2GDP2]; dd
    · fin_cases j
      · change HasDerivAt (fun _ : ℝ => (0 : ℝ)) (0 : ℝ) _
        exact hasDerivAt_const _ _
  · intro t p r hr i j; fin_cases i <;> fin_cases j <;> rfl
  · intro t p r hr i j k; fin_cases i <;> fin_cases j <;> fin_cases k <;> exact ⟨rfl, rfl⟩
  · intro r hr; funext i; fin_cases i <;> rfl

theorem raw_continuous (k : Fin 2) : Continuous fun r => raw r k := by
  fin_cases k
  · change Continuous fun r : Fin 1 → ℝ => r 0
    fun_prop
  · change Continuous fun r : Fin 1 → ℝ => 1 - r 0
    fun_prop

theorem consistent : mix.Consistent (Interior raw) := consistent_clamp F raw raw_continuous consistent_raw

/-- The dependent end member of alloy-liquid.c. -/
def dep : Fin 2 := 0

end AlloyLiquid

/-- **C24.** AlloyLiquid (alloy-liquid.c): derivatives, entropy, enthalpy, heat capacity and volume of mixing fit together. -/
theorem C24_alloyLiquid : AlloyLiquid.mix.Consistent (Interior AlloyLiquid.raw) := AlloyLiquid.consistent

/-- The interior contains the composition 1 / 4. -/
example : Interior AlloyLiquid.raw ![1 / 4] := by
  intro k
  fin_cases k
  · change ((1 / 4) : ℝ) > eps; unfold eps; norm_num
  · change (1 - (1 / 4) : ℝ) > eps; unfold eps; norm_num

/-- **C24.** The chemical potentials `act*` returns are the derivatives of the total Gibbs energy of mixing. -/
theorem C24_alloyLiquid_potentials (t p : ℝ) (m : Fin 2 → ℝ) (h0 : ∑ i, m i ≠ 0)
    (hr : Interior AlloyLiquid.raw (toR AlloyLiquid.dep m)) (i : Fin 2) :
    Partial (fun m => (∑ i, m i) * AlloyLiquid.mix.g t p (toR AlloyLiquid.dep m)) m i
      (mu AlloyLiquid.mix AlloyLiquid.dep t p (toR AlloyLiquid.dep m) i) :=
  C24_potential_is_derivative _ _ AlloyLiquid.consistent _ t p m h0 hr i

/-- **C24.** The derivatives of the activities `act*` returns are their derivatives. -/
theorem C24_alloyLiquid_activities (t p : ℝ) (r : Fin 1 → ℝ) (hr : Interior AlloyLiquid.raw r) (i : Fin 2)
    (k : Fin 1) : Partial (fun r => act AlloyLiquid.mix AlloyLiquid.dep t p r i) r k (dact AlloyLiquid.mix AlloyLiquid.dep t p r i k) :=
  C24_activity_derivative _ _ AlloyLiquid.consistent (isOpen_interior _ AlloyLiquid.raw_continuous) _ t p r hr i k

end

end Magma.Thermo.Mixing
