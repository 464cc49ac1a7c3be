import Verif.Thermo.Mixing
import Mathlib.Tactic.FinCases

/-!
Leucite and hornblende. Generated by /verif/tools/gen/genmix.py from the macros of /repo/sources: one definition per macro, with the
macros it mentions as definitions (the generator checks that this has the value of C's textual substitution). The
theorem `C24_*` of each phase says that the outputs of its mixing functions fit together (`Mix.Consistent`) wherever
the site fractions are above `DBL_EPSILON`. Simplification: `double` is the real numbers.
-/

set_option linter.unusedVariables false
set_option linter.unusedTactic false
set_option linter.unreachableTactic false
set_option linter.unusedSimpArgs false

namespace Magma.Thermo.Mixing

open Magma.Thermo.Extensive Magma.Thermo.Compo

noncomputable section

namespace Leucite

/-- `WNAK`, leucite.c 79. -/
def WNAK : ℝ := 7000

/-- `WNAH`, leucite.c 80. -/
def WNAH : ℝ := 7000

/-- `DGR`, leucite.c 81. -/
def DGR : ℝ := 53000

/-- `G0`, leucite.c 85. -/
def G0 : ℝ := 0

/-- `GX`, leucite.c 86. -/
def GX : ℝ := WNAK

/-- `GY`, leucite.c 87. -/
def GY : ℝ := WNAH

/-- `GXX`, leucite.c 88. -/
def GXX : ℝ := -WNAK

/-- `GYY`, leucite.c 89. -/
def GYY : ℝ := -WNAH

/-- `GXY`, leucite.c 90. -/
def GXY : ℝ := DGR

/-- `S`, leucite.c 108-111. -/
def S (t p r0 r1 xKL xNaL xH2OL xKS xNaS xVcS : ℝ) : ℝ :=
  (-R) * (xKL * Real.log xKL + xNaL * Real.log xNaL + xH2OL * Real.log xH2OL + 3 * xKS * Real.log xKS / 2 + 3
    * xNaS * Real.log xNaS / 2 + 3 * xVcS * Real.log xVcS / 2 - r1 * (3 / 2 * Real.log (2 / 3) + 1 / 2 *
    Real.log (1 / 2)))

/-- `H`, leucite.c 112-113. -/
def H (t p r0 r1 xKL xNaL xH2OL xKS xNaS xVcS : ℝ) : ℝ :=
  G0 + GX * r0 + GY * r1 + GXX * r0 * r0 + GYY * r1 * r1 + GXY * r0 * r1

/-- `V`, leucite.c 114. -/
def V (t p r0 r1 xKL xNaL xH2OL xKS xNaS xVcS : ℝ) : ℝ :=
  0

/-- `G`, leucite.c 115. -/
def G (t p r0 r1 xKL xNaL xH2OL xKS xNaS xVcS : ℝ) : ℝ :=
  (H t p r0 r1 xKL xNaL xH2OL xKS xNaS xVcS) - t * (S t p r0 r1 xKL xNaL xH2OL xKS xNaS xVcS) + (p - 1) * (V t
    p r0 r1 xKL xNaL xH2OL xKS xNaS xVcS)

/-- `DGDR0`, leucite.c 117-119. -/
def DGDR0 (t p r0 r1 xKL xNaL xH2OL xKS xNaS xVcS : ℝ) : ℝ :=
  R * t * ((1 - r1) * Real.log xKL - (1 - r1) * Real.log xNaL + r1 * Real.log xKS - r1 * Real.log xNaS) + GX +
    2 * GXX * r0 + GXY * r1

/-- `DGDR1`, leucite.c 120-123. -/
def DGDR1 (t p r0 r1 xKL xNaL xH2OL xKS xNaS xVcS : ℝ) : ℝ :=
  R * t * ((-r0) * Real.log xKL - (1 - r0) * Real.log xNaL + Real.log xH2OL + r0 * Real.log xKS + (1 - r0) *
    Real.log xNaS - Real.log xVcS - (3 / 2 * Real.log (2 / 3) + 1 / 2 * Real.log (1 / 2))) + GY + 2 * GYY * r1 +
    GXY * r0

/-- `DGDP`, leucite.c 125. -/
def DGDP (t p r0 r1 xKL xNaL xH2OL xKS xNaS xVcS : ℝ) : ℝ :=
  (V t p r0 r1 xKL xNaL xH2OL xKS xNaS xVcS)

/-- `D2GDR0R0`, leucite.c 127-129. -/
def D2GDR0R0 (t p r0 r1 xKL xNaL xH2OL xKS xNaS xVcS : ℝ) : ℝ :=
  R * t * ((1 - r1) * (1 - r1) / xKL + (1 - r1) * (1 - r1) / xNaL + 2 * r1 * r1 / (3 * xKS) + 2 * r1 * r1 / (3
    * xNaS)) + 2 * GXX

/-- `D2GDR0R1`, leucite.c 130. -/
def D2GDR0R1 (t p r0 r1 xKL xNaL xH2OL xKS xNaS xVcS : ℝ) : ℝ :=
  GXY

/-- `D2GDR1R1`, leucite.c 131-133. -/
def D2GDR1R1 (t p r0 r1 xKL xNaL xH2OL xKS xNaS xVcS : ℝ) : ℝ :=
  R * t * (r0 * r0 / xKL + (1 - r0) * (1 - r0) / xNaL + 1 / xH2OL + 2 * r0 * r0 / (3 * xKS) + 2 * (1 - r0) *
    (1 - r0) / (3 * xNaS) + 2 / (3 * xVcS)) + 2 * GYY

/-- `D2GDR0DT`, leucite.c 134-135. -/
def D2GDR0DT (t p r0 r1 xKL xNaL xH2OL xKS xNaS xVcS : ℝ) : ℝ :=
  R * ((1 - r1) * Real.log xKL - (1 - r1) * Real.log xNaL + r1 * Real.log xKS - r1 * Real.log xNaS)

/-- `D2GDR1DT`, leucite.c 136-138. -/
def D2GDR1DT (t p r0 r1 xKL xNaL xH2OL xKS xNaS xVcS : ℝ) : ℝ :=
  R * ((-r0) * Real.log xKL - (1 - r0) * Real.log xNaL + Real.log xH2OL + r0 * Real.log xKS + (1 - r0) *
    Real.log xNaS - Real.log xVcS - (3 / 2 * Real.log (2 / 3) + 1 / 2 * Real.log (1 / 2)))

/-- `D2GDR0DP`, leucite.c 139. -/
def D2GDR0DP (t p r0 r1 xKL xNaL xH2OL xKS xNaS xVcS : ℝ) : ℝ :=
  0

/-- `D2GDR1DP`, leucite.c 140. -/
def D2GDR1DP (t p r0 r1 xKL xNaL xH2OL xKS xNaS xVcS : ℝ) : ℝ :=
  0

/-- `D2GDT2`, leucite.c 141. -/
def D2GDT2 (t p r0 r1 xKL xNaL xH2OL xKS xNaS xVcS : ℝ) : ℝ :=
  0

/-- `D2GDTDP`, leucite.c 142. -/
def D2GDTDP (t p r0 r1 xKL xNaL xH2OL xKS xNaS xVcS : ℝ) : ℝ :=
  0

/-- `D2GDP2`, leucite.c 143. -/
def D2GDP2 (t p r0 r1 xKL xNaL xH2OL xKS xNaS xVcS : ℝ) : ℝ :=
  0

/-- `D3GDR0R0R0`, leucite.c 145-148. -/
def D3GDR0R0R0 (t p r0 r1 xKL xNaL xH2OL xKS xNaS xVcS : ℝ) : ℝ :=
  R * t * ((-(1 - r1)) * (1 - r1) * (1 - r1) / (xKL * xKL) + (1 - r1) * (1 - r1) * (1 - r1) / (xNaL * xNaL) -
    4 * r1 * r1 * r1 / (9 * xKS * xKS) + 4 * r1 * r1 * r1 / (9 * xNaS * xNaS))

/-- `D3GDR0R0R1`, leucite.c 149. -/
def D3GDR0R0R1 (t p r0 r1 xKL xNaL xH2OL xKS xNaS xVcS : ℝ) : ℝ :=
  0

/-- `D3GDR0R0DT`, leucite.c 150-151. -/
def D3GDR0R0DT (t p r0 r1 xKL xNaL xH2OL xKS xNaS xVcS : ℝ) : ℝ :=
  R * ((1 - r1) * (1 - r1) / xKL + (1 - r1) * (1 - r1) / xNaL + 2 * r1 * r1 / (3 * xKS) + 2 * r1 * r1 / (3 *
    xNaS))

/-- `D3GDR0R0DP`, leucite.c 152. -/
def D3GDR0R0DP (t p r0 r1 xKL xNaL xH2OL xKS xNaS xVcS : ℝ) : ℝ :=
  0

/-- `D3GDR0R1R1`, leucite.c 153. -/
def D3GDR0R1R1 (t p r0 r1 xKL xNaL xH2OL xKS xNaS xVcS : ℝ) : ℝ :=
  0

/-- `D3GDR0R1DT`, leucite.c 154. -/
def D3GDR0R1DT (t p r0 r1 xKL xNaL xH2OL xKS xNaS xVcS : ℝ) : ℝ :=
  0

/-- `D3GDR0R1DP`, leucite.c 155. -/
def D3GDR0R1DP (t p r0 r1 xKL xNaL xH2OL xKS xNaS xVcS : ℝ) : ℝ :=
  0

/-- `D3GDR1R1R1`, leucite.c 156-160. -/
def D3GDR1R1R1 (t p r0 r1 xKL xNaL xH2OL xKS xNaS xVcS : ℝ) : ℝ :=
  R * t * (r0 * r0 * r0 / (xKL * xKL) + (1 - r0) * (1 - r0) * (1 - r0) / (xNaL * xNaL) - 1 / (xH2OL * xH2OL) -
    4 * r0 * r0 * r0 / (9 * xKS * xKS) - 4 * (1 - r0) * (1 - r0) * (1 - r0) / (9 * xNaS * xNaS) + 4 / (9 * xVcS
    * xVcS))

/-- `D3GDR1R1DT`, leucite.c 161-163. -/
def D3GDR1R1DT (t p r0 r1 xKL xNaL xH2OL xKS xNaS xVcS : ℝ) : ℝ :=
  R * (r0 * r0 / xKL + (1 - r0) * (1 - r0) / xNaL + 1 / xH2OL + 2 * r0 * r0 / (3 * xKS) + 2 * (1 - r0) * (1 -
    r0) / (3 * xNaS) + 2 / (3 * xVcS))

/-- `D3GDR1R1DP`, leucite.c 164. -/
def D3GDR1R1DP (t p r0 r1 xKL xNaL xH2OL xKS xNaS xVcS : ℝ) : ℝ :=
  0

/-- `D3GDT3`, leucite.c 165. -/
def D3GDT3 (t p r0 r1 xKL xNaL xH2OL xKS xNaS xVcS : ℝ) : ℝ :=
  0

/-- `D3GDT2DP`, leucite.c 166. -/
def D3GDT2DP (t p r0 r1 xKL xNaL xH2OL xKS xNaS xVcS : ℝ) : ℝ :=
  0

/-- `D3GDTDP2`, leucite.c 167. -/
def D3GDTDP2 (t p r0 r1 xKL xNaL xH2OL xKS xNaS xVcS : ℝ) : ℝ :=
  0

/-- `D3GDP3`, leucite.c 168. -/
def D3GDP3 (t p r0 r1 xKL xNaL xH2OL xKS xNaS xVcS : ℝ) : ℝ :=
  0

/-- `D3GDR0DT2`, leucite.c 170. -/
def D3GDR0DT2 (t p r0 r1 xKL xNaL xH2OL xKS xNaS xVcS : ℝ) : ℝ :=
  0

/-- `D3GDR1DT2`, leucite.c 171. -/
def D3GDR1DT2 (t p r0 r1 xKL xNaL xH2OL xKS xNaS xVcS : ℝ) : ℝ :=
  0

/-- `D3GDR0DTDP`, leucite.c 172. -/
def D3GDR0DTDP (t p r0 r1 xKL xNaL xH2OL xKS xNaS xVcS : ℝ) : ℝ :=
  0

/-- `D3GDR1DTDP`, leucite.c 173. -/
def D3GDR1DTDP (t p r0 r1 xKL xNaL xH2OL xKS xNaS xVcS : ℝ) : ℝ :=
  0

/-- `D3GDR0DP2`, leucite.c 174. -/
def D3GDR0DP2 (t p r0 r1 xKL xNaL xH2OL xKS xNaS xVcS : ℝ) : ℝ :=
  0

/-- `D3GDR1DP2`, leucite.c 175. -/
def D3GDR1DP2 (t p r0 r1 xKL xNaL xH2OL xKS xNaS xVcS : ℝ) : ℝ :=
  0

/-- The macros as the functions of leucite.c use them: `gmix`, `hmix`, `smix`, `cpmix`, `vmix` and `act`. -/
def F (x : Fin 6 → ℝ) : Mix 2 where
  g t p r := G t p (r 0) (r 1) (x 0) (x 1) (x 2) (x 3) (x 4) (x 5)
  gr t p r := ![DGDR0 t p (r 0) (r 1) (x 0) (x 1) (x 2) (x 3) (x 4) (x 5), DGDR1 t p (r 0) (r 1) (x 0) (x 1) (x 2) (x 3) (x 4) (x 5)]
  grr t p r := ![![D2GDR0R0 t p (r 0) (r 1) (x 0) (x 1) (x 2) (x 3) (x 4) (x 5), D2GDR0R1 t p (r 0) (r 1) (x 0) (x 1) (x 2) (x 3) (x 4) (x 5)], ![D2GDR0R1 t p (r 0) (r 1) (x 0) (x 1) (x 2) (x 3) (x 4) (x 5), D2GDR1R1 t p (r 0) (r 1) (x 0) (x 1) (x 2) (x 3) (x 4) (x 5)]]
  grrr t p r := ![![![D3GDR0R0R0 t p (r 0) (r 1) (x 0) (x 1) (x 2) (x 3) (x 4) (x 5), D3GDR0R0R1 t p (r 0) (r 1) (x 0) (x 1) (x 2) (x 3) (x 4) (x 5)], ![D3GDR0R0R1 t p (r 0) (r 1) (x 0) (x 1) (x 2) (x 3) (x 4) (x 5), D3GDR0R1R1 t p (r 0) (r 1) (x 0) (x 1) (x 2) (x 3) (x 4) (x 5)]], ![![D3GDR0R0R1 t p (r 0) (r 1) (x 0) (x 1) (x 2) (x 3) (x 4) (x 5), D3GDR0R1R1 t p (r 0) (r 1) (x 0) (x 1) (x 2) (x 3) (x 4) (x 5)], ![D3GDR0R1R1 t p (r 0) (r 1) (x 0) (x 1) (x 2) (x 3) (x 4) (x 5), D3GDR1R1R1 t p (r 0) (r 1) (x 0) (x 1) (x 2) (x 3) (x 4) (x 5)]]]
  h t p r := (G t p (r 0) (r 1) (x 0) (x 1) (x 2) (x 3) (x 4) (x 5)) + t * (S t p (r 0) (r 1) (x 0) (x 1) (x 2) (x 3) (x 4) (x 5))
  s t p r := S t p (r 0) (r 1) (x 0) (x 1) (x 2) (x 3) (x 4) (x 5)
  sr t p r := ![-(D2GDR0DT t p (r 0) (r 1) (x 0) (x 1) (x 2) (x 3) (x 4) (x 5)), -(D2GDR1DT t p (r 0) (r 1) (x 0) (x 1) (x 2) (x 3) (x 4) (x 5))]
  srr t p r := ![![-(D3GDR0R0DT t p (r 0) (r 1) (x 0) (x 1) (x 2) (x 3) (x 4) (x 5)), -(D3GDR0R1DT t p (r 0) (r 1) (x 0) (x 1) (x 2) (x 3) (x 4) (x 5))], ![-(D3GDR0R1DT t p (r 0) (r 1) (x 0) (x 1) (x 2) (x 3) (x 4) (x 5)), -(D3GDR1R1DT t p (r 0) (r 1) (x 0) (x 1) (x 2) (x 3) (x 4) (x 5))]]
  cp t p r := -t * (D2GDT2 t p (r 0) (r 1) (x 0) (x 1) (x 2) (x 3) (x 4) (x 5))
  cpt t p r := -t * (D3GDT3 t p (r 0) (r 1) (x 0) (x 1) (x 2) (x 3) (x 4) (x 5)) - D2GDT2 t p (r 0) (r 1) (x 0) (x 1) (x 2) (x 3) (x 4) (x 5)
  cpr t p r := ![-t * (D3GDR0DT2 t p (r 0) (r 1) (x 0) (x 1) (x 2) (x 3) (x 4) (x 5)), -t * (D3GDR1DT2 t p (r 0) (r 1) (x 0) (x 1) (x 2) (x 3) (x 4) (x 5))]
  v t p r := DGDP t p (r 0) (r 1) (x 0) (x 1) (x 2) (x 3) (x 4) (x 5)
  vr t p r := ![D2GDR0DP t p (r 0) (r 1) (x 0) (x 1) (x 2) (x 3) (x 4) (x 5), D2GDR1DP t p (r 0) (r 1) (x 0) (x 1) (x 2) (x 3) (x 4) (x 5)]
  vrr t p r := ![![D3GDR0R0DP t p (r 0) (r 1) (x 0) (x 1) (x 2) (x 3) (x 4) (x 5), D3GDR0R1DP t p (r 0) (r 1) (x 0) (x 1) (x 2) (x 3) (x 4) (x 5)], ![D3GDR0R1DP t p (r 0) (r 1) (x 0) (x 1) (x 2) (x 3) (x 4) (x 5), D3GDR1R1DP t p (r 0) (r 1) (x 0) (x 1) (x 2) (x 3) (x 4) (x 5)]]
  vt t p r := D2GDTDP t p (r 0) (r 1) (x 0) (x 1) (x 2) (x 3) (x 4) (x 5)
  vp t p r := D2GDP2 t p (r 0) (r 1) (x 0) (x 1) (x 2) (x 3) (x 4) (x 5)
  vtt t p r := D3GDT2DP t p (r 0) (r 1) (x 0) (x 1) (x 2) (x 3) (x 4) (x 5)
  vtp t p r := D3GDTDP2 t p (r 0) (r 1) (x 0) (x 1) (x 2) (x 3) (x 4) (x 5)
  vpp t p r := D3GDP3 t p (r 0) (r 1) (x 0) (x 1) (x 2) (x 3) (x 4) (x 5)
  vrt t p r := ![D3GDR0DTDP t p (r 0) (r 1) (x 0) (x 1) (x 2) (x 3) (x 4) (x 5), D3GDR1DTDP t p (r 0) (r 1) (x 0) (x 1) (x 2) (x 3) (x 4) (x 5)]
  vrp t p r := ![D3GDR0DP2 t p (r 0) (r 1) (x 0) (x 1) (x 2) (x 3) (x 4) (x 5), D3GDR1DP2 t p (r 0) (r 1) (x 0) (x 1) (x 2) (x 3) (x 4) (x 5)]
  fx r := r

/-- Site fractions before clamping, lines 435 436 437 438 439 440 529 530 531 532 533 534 581 582 583 584 585 586 599 600 601 602 603 604 of leucite.c. -/
def raw (r : Fin 2 → ℝ) : Fin 6 → ℝ := ![r 0 * (1 - r 1), (1 - r 0) * (1 - r 1), r 1, 2 * r 0 * r 1 / 3, 2 * (1 - r 0) * r 1 / 3, 1 - 2 * r 1 / 3]

/-- The phase as coded in leucite.c. -/
def mix : Mix 2 := ofSites F fun r k => clamp (raw r k)

theorem G_d0 (t p r0 r1 : ℝ) (h0 : 0 < r0 * (1 - r1)) (h1 : 0 < (1 - r0) * (1 - r1)) (h2 : 0 < r1) (h3 : 0 < 2 * r0 * r1 / 3) (h4 : 0 < 2 * (1 - r0) * r1 / 3) (h5 : 0 < 1 - 2 * r1 / 3) :
    HasDerivAt (fun r0 => G t p r0 r1 (r0 * (1 - r1)) ((1 - r0) * (1 - r1)) r1 (2 * r0 * r1 / 3) (2 * (1 - r0) * r1 / 3) (1 - 2 * r1 / 3)) (DGDR0 t p r0 r1 (r0 * (1 - r1)) ((1 - r0) * (1 - r1)) r1 (2 * r0 * r1 / 3) (2 * (1 - r0) * r1 / 3) (1 - 2 * r1 / 3)) r0 := by
  have n0 := h0.ne'
  have n1 := h1.ne'
  have n2 := h2.ne'
  have n3 := h3.ne'
  have n4 := h4.ne'
  have n5 := h5.ne'
  have a0 : r0 ≠ 0 := fun h => by simp [h] at n0
  have a1 : 1 - r1 ≠ 0 := fun h => by simp [h] at n0
  have a2 : 1 - r0 ≠ 0 := fun h => by simp [h] at n1
  have a4 : 3 - r1 * 2 ≠ 0 := fun h => n5 (by linarith)
  have a3 : 3 - 2 * r1 ≠ 0 := fun h => n5 (by linarith)
  have l0 := Real.log_mul a0 a1
  have l1 := Real.log_mul a2 a1
  have l2 : Real.log (2 * r0 * r1 / 3) = Real.log r0 + Real.log (2 * r1 / 3) := by
    rw [← Real.log_mul a0 (by positivity)]; ring_nf
  have l3 : Real.log (2 * (1 - r0) * r1 / 3) = Real.log (1 - r0) + Real.log (2 * r1 / 3) := by
    rw [← Real.log_mul a2 (by positivity)]; ring_nf
  have l4 : 1 - 2 * r1 / 3 = (3 - 2 * r1) / 3 := by ring
  simp only [H, S, V, G, DGDR0]
  refine HasDerivAt.congr_deriv (by hd) ?_
  try simp only [l0, l1, l2, l3, l4]
  all_goals first | ring1 | (field_simp; done) | (field_simp; ring1) | (field_simp; ring_nf; field_simp; ring1)

theorem G_d1 (t p r0 r1 : ℝ) (h0 : 0 < r0 * (1 - r1)) (h1 : 0 < (1 - r0) * (1 - r1)) (h2 : 0 < r1) (h3 : 0 < 2 * r0 * r1 / 3) (h4 : 0 < 2 * (1 - r0) * r1 / 3) (h5 : 0 < 1 - 2 * r1 / 3) :
    HasDerivAt (fun r1 => G t p r0 r1 (r0 * (1 - r1)) ((1 - r0) * (1 - r1)) r1 (2 * r0 * r1 / 3) (2 * (1 - r0) * r1 / 3) (1 - 2 * r1 / 3)) (DGDR1 t p r0 r1 (r0 * (1 - r1)) ((1 - r0) * (1 - r1)) r1 (2 * r0 * r1 / 3) (2 * (1 - r0) * r1 / 3) (1 - 2 * r1 / 3)) r1 := by
  have n0 := h0.ne'
  have n1 := h1.ne'
  have n2 := h2.ne'
  have n3 := h3.ne'
  have n4 := h4.ne'
  have n5 := h5.ne'
  have a0 : r0 ≠ 0 := fun h => by simp [h] at n0
  have a1 : 1 - r1 ≠ 0 := fun h => by simp [h] at n0
  have a2 : 1 - r0 ≠ 0 := fun h => by simp [h] at n1
  have a4 : 3 - r1 * 2 ≠ 0 := fun h => n5 (by linarith)
  have a3 : 3 - 2 * r1 ≠ 0 := fun h => n5 (by linarith)
  have l0 := Real.log_mul a0 a1
  have l1 := Real.log_mul a2 a1
  have l2 : Real.log (2 * r0 * r1 / 3) = Real.log r0 + Real.log (2 * r1 / 3) := by
    rw [← Real.log_mul a0 (by positivity)]; ring_nf
  have l3 : Real.log (2 * (1 - r0) * r1 / 3) = Real.log (1 - r0) + Real.log (2 * r1 / 3) := by
    rw [← Real.log_mul a2 (by positivity)]; ring_nf
  have l4 : 1 - 2 * r1 / 3 = (3 - 2 * r1) / 3 := by ring
  simp only [H, S, V, G, DGDR1]
  refine HasDerivAt.congr_deriv (by hd) ?_
  try simp only [l0, l1, l2, l3, l4]
  all_goals first | ring1 | (field_simp; done) | (field_simp; ring1) | (field_simp; ring_nf; field_simp; ring1)

theorem G_diff (t p : ℝ) (r : Fin 2 → ℝ) (h0 : 0 < r 0 * (1 - r 1)) (h1 : 0 < (1 - r 0) * (1 - r 1)) (h2 : 0 < r 1) (h3 : 0 < 2 * r 0 * r 1 / 3) (h4 : 0 < 2 * (1 - r 0) * r 1 / 3) (h5 : 0 < 1 - 2 * r 1 / 3) :
    DifferentiableAt ℝ (fun r : Fin 2 → ℝ => G t p (r 0) (r 1) (r 0 * (1 - r 1)) ((1 - r 0) * (1 - r 1)) (r 1) (2 * r 0 * r 1 / 3) (2 * (1 - r 0) * r 1 / 3) (1 - 2 * r 1 / 3)) r := by
  have n0 := h0.ne'
  have n1 := h1.ne'
  have n2 := h2.ne'
  have n3 := h3.ne'
  have n4 := h4.ne'
  have n5 := h5.ne'
  simp only [H, S, V, G]
  dd

theorem DGDR0_d0 (t p r0 r1 : ℝ) (h0 : 0 < r0 * (1 - r1)) (h1 : 0 < (1 - r0) * (1 - r1)) (h2 : 0 < r1) (h3 : 0 < 2 * r0 * r1 / 3) (h4 : 0 < 2 * (1 - r0) * r1 / 3) (h5 : 0 < 1 - 2 * r1 / 3) :
    HasDerivAt (fun r0 => DGDR0 t p r0 r1 (r0 * (1 - r1)) ((1 - r0) * (1 - r1)) r1 (2 * r0 * r1 / 3) (2 * (1 - r0) * r1 / 3) (1 - 2 * r1 / 3)) (D2GDR0R0 t p r0 r1 (r0 * (1 - r1)) ((1 - r0) * (1 - r1)) r1 (2 * r0 * r1 / 3) (2 * (1 - r0) * r1 / 3) (1 - 2 * r1 / 3)) r0 := by
  have n0 := h0.ne'
  have n1 := h1.ne'
  have n2 := h2.ne'
  have n3 := h3.ne'
  have n4 := h4.ne'
  have n5 := h5.ne'
  have a0 : r0 ≠ 0 := fun h => by simp [h] at n0
  have a1 : 1 - r1 ≠ 0 := fun h => by simp [h] at n0
  have a2 : 1 - r0 ≠ 0 := fun h => by simp [h] at n1
  have a4 : 3 - r1 * 2 ≠ 0 := fun h => n5 (by linarith)
  have a3 : 3 - 2 * r1 ≠ 0 := fun h => n5 (by linarith)
  have l0 := Real.log_mul a0 a1
  have l1 := Real.log_mul a2 a1
  have l2 : Real.log (2 * r0 * r1 / 3) = Real.log r0 + Real.log (2 * r1 / 3) := by
    rw [← Real.log_mul a0 (by positivity)]; ring_nf
  have l3 : Real.log (2 * (1 - r0) * r1 / 3) = Real.log (1 - r0) + Real.log (2 * r1 / 3) := by
    rw [← Real.log_mul a2 (by positivity)]; ring_nf
  have l4 : 1 - 2 * r1 / 3 = (3 - 2 * r1) / 3 := by ring
  simp only [DGDR0, D2GDR0R0]
  refine HasDerivAt.congr_deriv (by hd) ?_
  try simp only [l0, l1, l2, l3, l4]
  all_goals first | ring1 | (field_simp; done) | (field_simp; ring1) | (field_simp; ring_nf; field_simp; ring1)

theorem DGDR0_d1 (t p r0 r1 : ℝ) (h0 : 0 < r0 * (1 - r1)) (h1 : 0 < (1 - r0) * (1 - r1)) (h2 : 0 < r1) (h3 : 0 < 2 * r0 * r1 / 3) (h4 : 0 < 2 * (1 - r0) * r1 / 3) (h5 : 0 < 1 - 2 * r1 / 3) :
    HasDerivAt (fun r1 => DGDR0 t p r0 r1 (r0 * (1 - r1)) ((1 - r0) * (1 - r1)) r1 (2 * r0 * r1 / 3) (2 * (1 - r0) * r1 / 3) (1 - 2 * r1 / 3)) (D2GDR0R1 t p r0 r1 (r0 * (1 - r1)) ((1 - r0) * (1 - r1)) r1 (2 * r0 * r1 / 3) (2 * (1 - r0) * r1 / 3) (1 - 2 * r1 / 3)) r1 := by
  have n0 := h0.ne'
  have n1 := h1.ne'
  have n2 := h2.ne'
  have n3 := h3.ne'
  have n4 := h4.ne'
  have n5 := h5.ne'
  have a0 : r0 ≠ 0 := fun h => by simp [h] at n0
  have a1 : 1 - r1 ≠ 0 := fun h => by simp [h] at n0
  have a2 : 1 - r0 ≠ 0 := fun h => by simp [h] at n1
  have a4 : 3 - r1 * 2 ≠ 0 := fun h => n5 (by linarith)
  have a3 : 3 - 2 * r1 ≠ 0 := fun h => n5 (by linarith)
  have l0 := Real.log_mul a0 a1
  have l1 := Real.log_mul a2 a1
  have l2 : Real.log (2 * r0 * r1 / 3) = Real.log r0 + Real.log (2 * r1 / 3) := by
    rw [← Real.log_mul a0 (by positivity)]; ring_nf
  have l3 : Real.log (2 * (1 - r0) * r1 / 3) = Real.log (1 - r0) + Real.log (2 * r1 / 3) := by
    rw [← Real.log_mul a2 (by positivity)]; ring_nf
  have l4 : 1 - 2 * r1 / 3 = (3 - 2 * r1) / 3 := by ring
  simp only [DGDR0, D2GDR0R1]
  refine HasDerivAt.congr_deriv (by hd) ?_
  try simp only [l0, l1, l2, l3, l4]
  all_goals first | ring1 | (field_simp; done) | (field_simp; ring1) | (field_simp; ring_nf; field_simp; ring1)

theorem DGDR0_diff (t p : ℝ) (r : Fin 2 → ℝ) (h0 : 0 < r 0 * (1 - r 1)) (h1 : 0 < (1 - r 0) * (1 - r 1)) (h2 : 0 < r 1) (h3 : 0 < 2 * r 0 * r 1 / 3) (h4 : 0 < 2 * (1 - r 0) * r 1 / 3) (h5 : 0 < 1 - 2 * r 1 / 3) :
    DifferentiableAt ℝ (fun r : Fin 2 → ℝ => DGDR0 t p (r 0) (r 1) (r 0 * (1 - r 1)) ((1 - r 0) * (1 - r 1)) (r 1) (2 * r 0 * r 1 / 3) (2 * (1 - r 0) * r 1 / 3) (1 - 2 * r 1 / 3)) r := by
  have n0 := h0.ne'
  have n1 := h1.ne'
  have n2 := h2.ne'
  have n3 := h3.ne'
  have n4 := h4.ne'
  have n5 := h5.ne'
  simp only [DGDR0]
  dd

theorem DGDR1_d0 (t p r0 r1 : ℝ) (h0 : 0 < r0 * (1 - r1)) (h1 : 0 < (1 - r0) * (1 - r1)) (h2 : 0 < r1) (h3 : 0 < 2 * r0 * r1 / 3) (h4 : 0 < 2 * (1 - r0) * r1 / 3) (h5 : 0 < 1 - 2 * r1 / 3) :
    HasDerivAt (fun r0 => DGDR1 t p r0 r1 (r0 * (1 - r1)) ((1 - r0) * (1 - r1)) r1 (2 * r0 * r1 / 3) (2 * (1 - r0) * r1 / 3) (1 - 2 * r1 / 3)) (D2GDR0R1 t p r0 r1 (r0 * (1 - r1)) ((1 - r0) * (1 - r1)) r1 (2 * r0 * r1 / 3) (2 * (1 - r0) * r1 / 3) (1 - 2 * r1 / 3)) r0 := by
  have n0 := h0.ne'
  have n1 := h1.ne'
  have n2 := h2.ne'
  have n3 := h3.ne'
  have n4 := h4.ne'
  have n5 := h5.ne'
  have a0 : r0 ≠ 0 := fun h => by simp [h] at n0
  have a1 : 1 - r1 ≠ 0 := fun h => by simp [h] at n0
  have a2 : 1 - r0 ≠ 0 := fun h => by simp [h] at n1
  have a4 : 3 - r1 * 2 ≠ 0 := fun h => n5 (by linarith)
  have a3 : 3 - 2 * r1 ≠ 0 := fun h => n5 (by linarith)
  have l0 := Real.log_mul a0 a1
  have l1 := Real.log_mul a2 a1
  have l2 : Real.log (2 * r0 * r1 / 3) = Real.log r0 + Real.log (2 * r1 / 3) := by
    rw [← Real.log_mul a0 (by positivity)]; ring_nf
  have l3 : Real.log (2 * (1 - r0) * r1 / 3) = Real.log (1 - r0) + Real.log (2 * r1 / 3) := by
    rw [← Real.log_mul a2 (by positivity)]; ring_nf
  have l4 : 1 - 2 * r1 / 3 = (3 - 2 * r1) / 3 := by ring
  simp only [DGDR1, D2GDR0R1]
  refine HasDerivAt.congr_deriv (by hd) ?_
  try simp only [l0, l1, l2, l3, l4]
  all_goals first | ring1 | (field_simp; done) | (field_simp; ring1) | (field_simp; ring_nf; field_simp; ring1)

theorem DGDR1_d1 (t p r0 r1 : ℝ) (h0 : 0 < r0 * (1 - r1)) (h1 : 0 < (1 - r0) * (1 - r1)) (h2 : 0 < r1) (h3 : 0 < 2 * r0 * r1 / 3) (h4 : 0 < 2 * (1 - r0) * r1 / 3) (h5 : 0 < 1 - 2 * r1 / 3) :
    HasDerivAt (fun r1 => DGDR1 t p r0 r1 (r0 * (1 - r1)) ((1 - r0) * (1 - r1)) r1 (2 * r0 * r1 / 3) (2 * (1 - r0) * r1 / 3) (1 - 2 * r1 / 3)) (D2GDR1R1 t p r0 r1 (r0 * (1 - r1)) ((1 - r0) * (1 - r1)) r1 (2 * r0 * r1 / 3) (2 * (1 - r0) * r1 / 3) (1 - 2 * r1 / 3)) r1 := by
  have n0 := h0.ne'
  have n1 := h1.ne'
  have n2 := h2.ne'
  have n3 := h3.ne'
  have n4 := h4.ne'
  have n5 := h5.ne'
  have a0 : r0 ≠ 0 := fun h => by simp [h] at n0
  have a1 : 1 - r1 ≠ 0 := fun h => by simp [h] at n0
  have a2 : 1 - r0 ≠ 0 := fun h => by simp [h] at n1
  have a4 : 3 - r1 * 2 ≠ 0 := fun h => n5 (by linarith)
  have a3 : 3 - 2 * r1 ≠ 0 := fun h => n5 (by linarith)
  have l0 := Real.log_mul a0 a1
  have l1 := Real.log_mul a2 a1
  have l2 : Real.log (2 * r0 * r1 / 3) = Real.log r0 + Real.log (2 * r1 / 3) := by
    rw [← Real.log_mul a0 (by positivity)]; ring_nf
  have l3 : Real.log (2 * (1 - r0) * r1 / 3) = Real.log (1 - r0) + Real.log (2 * r1 / 3) := by
    rw [← Real.log_mul a2 (by positivity)]; ring_nf
  have l4 : 1 - 2 * r1 / 3 = (3 - 2 * r1) / 3 := by ring
  simp only [DGDR1, D2GDR1R1]
  refine HasDerivAt.congr_deriv (by hd) ?_
  try simp only [l0, l1, l2, l3, l4]
  all_goals first | ring1 | (field_simp; done) | (field_simp; ring1) | (field_simp; ring_nf; field_simp; ring1)

theorem DGDR1_diff (t p : ℝ) (r : Fin 2 → ℝ) (h0 : 0 < r 0 * (1 - r 1)) (h1 : 0 < (1 - r 0) * (1 - r 1)) (h2 : 0 < r 1) (h3 : 0 < 2 * r 0 * r 1 / 3) (h4 : 0 < 2 * (1 - r 0) * r 1 / 3) (h5 : 0 < 1 - 2 * r 1 / 3) :
    DifferentiableAt ℝ (fun r : Fin 2 → ℝ => DGDR1 t p (r 0) (r 1) (r 0 * (1 - r 1)) ((1 - r 0) * (1 - r 1)) (r 1) (2 * r 0 * r 1 / 3) (2 * (1 - r 0) * r 1 / 3) (1 - 2 * r 1 / 3)) r := by
  have n0 := h0.ne'
  have n1 := h1.ne'
  have n2 := h2.ne'
  have n3 := h3.ne'
  have n4 := h4.ne'
  have n5 := h5.ne'
  simp only [DGDR1]
  dd

theorem D2GDR0R0_d0 (t p r0 r1 : ℝ) (h0 : 0 < r0 * (1 - r1)) (h1 : 0 < (1 - r0) * (1 - r1)) (h2 : 0 < r1) (h3 : 0 < 2 * r0 * r1 / 3) (h4 : 0 < 2 * (1 - r0) * r1 / 3) (h5 : 0 < 1 - 2 * r1 / 3) :
    HasDerivAt (fun r0 => D2GDR0R0 t p r0 r1 (r0 * (1 - r1)) ((1 - r0) * (1 - r1)) r1 (2 * r0 * r1 / 3) (2 * (1 - r0) * r1 / 3) (1 - 2 * r1 / 3)) (D3GDR0R0R0 t p r0 r1 (r0 * (1 - r1)) ((1 - r0) * (1 - r1)) r1 (2 * r0 * r1 / 3) (2 * (1 - r0) * r1 / 3) (1 - 2 * r1 / 3)) r0 := by
  have n0 := h0.ne'
  have n1 := h1.ne'
  have n2 := h2.ne'
  have n3 := h3.ne'
  have n4 := h4.ne'
  have n5 := h5.ne'
  have a0 : r0 ≠ 0 := fun h => by simp [h] at n0
  have a1 : 1 - r1 ≠ 0 := fun h => by simp [h] at n0
  have a2 : 1 - r0 ≠ 0 := fun h => by simp [h] at n1
  have a4 : 3 - r1 * 2 ≠ 0 := fun h => n5 (by linarith)
  have a3 : 3 - 2 * r1 ≠ 0 := fun h => n5 (by linarith)
  have l0 := Real.log_mul a0 a1
  have l1 := Real.log_mul a2 a1
  have l2 : Real.log (2 * r0 * r1 / 3) = Real.log r0 + Real.log (2 * r1 / 3) := by
    rw [← Real.log_mul a0 (by positivity)]; ring_nf
  have l3 : Real.log (2 * (1 - r0) * r1 / 3) = Real.log (1 - r0) + Real.log (2 * r1 / 3) := by
    rw [← Real.log_mul a2 (by positivity)]; ring_nf
  have l4 : 1 - 2 * r1 / 3 = (3 - 2 * r1) / 3 := by ring
  simp only [D2GDR0R0, D3GDR0R0R0]
  refine HasDerivAt.congr_deriv (by hd) ?_
  try simp only [l0, l1, l2, l3, l4]
  all_goals first | ring1 | (field_simp; done) | (field_simp; ring1) | (field_simp; ring_nf; field_simp; ring1)

theorem D2GDR0R0_d1 (t p r0 r1 : ℝ) (h0 : 0 < r0 * (1 - r1)) (h1 : 0 < (1 - r0) * (1 - r1)) (h2 : 0 < r1) (h3 : 0 < 2 * r0 * r1 / 3) (h4 : 0 < 2 * (1 - r0) * r1 / 3) (h5 : 0 < 1 - 2 * r1 / 3) :
    HasDerivAt (fun r1 => D2GDR0R0 t p r0 r1 (r0 * (1 - r1)) ((1 - r0) * (1 - r1)) r1 (2 * r0 * r1 / 3) (2 * (1 - r0) * r1 / 3) (1 - 2 * r1 / 3)) (D3GDR0R0R1 t p r0 r1 (r0 * (1 - r1)) ((1 - r0) * (1 - r1)) r1 (2 * r0 * r1 / 3) (2 * (1 - r0) * r1 / 3) (1 - 2 * r1 / 3)) r1 := by
  have n0 := h0.ne'
  have n1 := h1.ne'
  have n2 := h2.ne'
  have n3 := h3.ne'
  have n4 := h4.ne'
  have n5 := h5.ne'
  have a0 : r0 ≠ 0 := fun h => by simp [h] at n0
  have a1 : 1 - r1 ≠ 0 := fun h => by simp [h] at n0
  have a2 : 1 - r0 ≠ 0 := fun h => by simp [h] at n1
  have a4 : 3 - r1 * 2 ≠ 0 := fun h => n5 (by linarith)
  have a3 : 3 - 2 * r1 ≠ 0 := fun h => n5 (by linarith)
  have l0 := Real.log_mul a0 a1
  have l1 := Real.log_mul a2 a1
  have l2 : Real.log (2 * r0 * r1 / 3) = Real.log r0 + Real.log (2 * r1 / 3) := by
    rw [← Real.log_mul a0 (by positivity)]; ring_nf
  have l3 : Real.log (2 * (1 - r0) * r1 / 3) = Real.log (1 - r0) + Real.log (2 * r1 / 3) := by
    rw [← Real.log_mul a2 (by positivity)]; ring_nf
  have l4 : 1 - 2 * r1 / 3 = (3 - 2 * r1) / 3 := by ring
  simp only [D2GDR0R0, D3GDR0R0R1]
  refine HasDerivAt.congr_deriv (by hd) ?_
  try simp only [l0, l1, l2, l3, l4]
  all_goals first | ring1 | (field_simp; done) | (field_simp; ring1) | (field_simp; ring_nf; field_simp; ring1)

theorem D2GDR0R0_diff (t p : ℝ) (r : Fin 2 → ℝ) (h0 : 0 < r 0 * (1 - r 1)) (h1 : 0 < (1 - r 0) * (1 - r 1)) (h2 : 0 < r 1) (h3 : 0 < 2 * r 0 * r 1 / 3) (h4 : 0 < 2 * (1 - r 0) * r 1 / 3) (h5 : 0 < 1 - 2 * r 1 / 3) :
    DifferentiableAt ℝ (fun r : Fin 2 → ℝ => D2GDR0R0 t p (r 0) (r 1) (r 0 * (1 - r 1)) ((1 - r 0) * (1 - r 1)) (r 1) (2 * r 0 * r 1 / 3) (2 * (1 - r 0) * r 1 / 3) (1 - 2 * r 1 / 3)) r := by
  have n0 := h0.ne'
  have n1 := h1.ne'
  have n2 := h2.ne'
  have n3 := h3.ne'
  have n4 := h4.ne'
  have n5 := h5.ne'
  simp only [D2GDR0R0]
  dd

theorem D2GDR0R1_d0 (t p r0 r1 : ℝ) (h0 : 0 < r0 * (1 - r1)) (h1 : 0 < (1 - r0) * (1 - r1)) (h2 : 0 < r1) (h3 : 0 < 2 * r0 * r1 / 3) (h4 : 0 < 2 * (1 - r0) * r1 / 3) (h5 : 0 < 1 - 2 * r1 / 3) :
    HasDerivAt (fun r0 => D2GDR0R1 t p r0 r1 (r0 * (1 - r1)) ((1 - r0) * (1 - r1)) r1 (2 * r0 * r1 / 3) (2 * (1 - r0) * r1 / 3) (1 - 2 * r1 / 3)) (D3GDR0R0R1 t p r0 r1 (r0 * (1 - r1)) ((1 - r0) * (1 - r1)) r1 (2 * r0 * r1 / 3) (2 * (1 - r0) * r1 / 3) (1 - 2 * r1 / 3)) r0 := by
  have n0 := h0.ne'
  have n1 := h1.ne'
  have n2 := h2.ne'
  have n3 := h3.ne'
  have n4 := h4.ne'
  have n5 := h5.ne'
  have a0 : r0 ≠ 0 := fun h => by simp [h] at n0
  have a1 : 1 - r1 ≠ 0 := fun h => by simp [h] at n0
  have a2 : 1 - r0 ≠ 0 := fun h => by simp [h] at n1
  have a4 : 3 - r1 * 2 ≠ 0 := fun h => n5 (by linarith)
  have a3 : 3 - 2 * r1 ≠ 0 := fun h => n5 (by linarith)
  have l0 := Real.log_mul a0 a1
  have l1 := Real.log_mul a2 a1
  have l2 : Real.log (2 * r0 * r1 / 3) = Real.log r0 + Real.log (2 * r1 / 3) := by
    rw [← Real.log_mul a0 (by positivity)]; ring_nf
  have l3 : Real.log (2 * (1 - r0) * r1 / 3) = Real.log (1 - r0) + Real.log (2 * r1 / 3) := by
    rw [← Real.log_mul a2 (by positivity)]; ring_nf
  have l4 : 1 - 2 * r1 / 3 = (3 - 2 * r1) / 3 := by ring
  simp only [D2GDR0R1, D3GDR0R0R1]
  refine HasDerivAt.congr_deriv (by hd) ?_
  try simp only [l0, l1, l2, l3, l4]
  all_goals first | ring1 | (field_simp; done) | (field_simp; ring1) | (field_simp; ring_nf; field_simp; ring1)

theorem D2GDR0R1_d1 (t p r0 r1 : ℝ) (h0 : 0 < r0 * (1 - r1)) (h1 : 0 < (1 - r0) * (1 - r1)) (h2 : 0 < r1) (h3 : 0 < 2 * r0 * r1 / 3) (h4 : 0 < 2 * (1 - r0) * r1 / 3) (h5 : 0 < 1 - 2 * r1 / 3) :
    HasDerivAt (fun r1 => D2GDR0R1 t p r0 r1 (r0 * (1 - r1)) ((1 - r0) * (1 - r1)) r1 (2 * r0 * r1 / 3) (2 * (1 - r0) * r1 / 3) (1 - 2 * r1 / 3)) (D3GDR0R1R1 t p r0 r1 (r0 * (1 - r1)) ((1 - r0) * (1 - r1)) r1 (2 * r0 * r1 / 3) (2 * (1 - r0) * r1 / 3) (1 - 2 * r1 / 3)) r1 := by
  have n0 := h0.ne'
  have n1 := h1.ne'
  have n2 := h2.ne'
  have n3 := h3.ne'
  have n4 := h4.ne'
  have n5 := h5.ne'
  have a0 : r0 ≠ 0 := fun h => by simp [h] at n0
  have a1 : 1 - r1 ≠ 0 := fun h => by simp [h] at n0
  have a2 : 1 - r0 ≠ 0 := fun h => by simp [h] at n1
  have a4 : 3 - r1 * 2 ≠ 0 := fun h => n5 (by linarith)
  have a3 : 3 - 2 * r1 ≠ 0 := fun h => n5 (by linarith)
  have l0 := Real.log_mul a0 a1
  have l1 := Real.log_mul a2 a1
  have l2 : Real.log (2 * r0 * r1 / 3) = Real.log r0 + Real.log (2 * r1 / 3) := by
    rw [← Real.log_mul a0 (by positivity)]; ring_nf
  have l3 : Real.log (2 * (1 - r0) * r1 / 3) = Real.log (1 - r0) + Real.log (2 * r1 / 3) := by
    rw [← Real.log_mul a2 (by positivity)]; ring_nf
  have l4 : 1 - 2 * r1 / 3 = (3 - 2 * r1) / 3 := by ring
  simp only [D2GDR0R1, D3GDR0R1R1]
  refine HasDerivAt.congr_deriv (by hd) ?_
  try simp only [l0, l1, l2, l3, l4]
  all_goals first | ring1 | (field_simp; done) | (field_simp; ring1) | (field_simp; ring_nf; field_simp; ring1)

theorem D2GDR0R1_diff (t p : ℝ) (r : Fin 2 → ℝ) (h0 : 0 < r 0 * (1 - r 1)) (h1 : 0 < (1 - r 0) * (1 - r 1)) (h2 : 0 < r 1) (h3 : 0 < 2 * r 0 * r 1 / 3) (h4 : 0 < 2 * (1 - r 0) * r 1 / 3) (h5 : 0 < 1 - 2 * r 1 / 3) :
    DifferentiableAt ℝ (fun r : Fin 2 → ℝ => D2GDR0R1 t p (r 0) (r 1) (r 0 * (1 - r 1)) ((1 - r 0) * (1 - r 1)) (r 1) (2 * r 0 * r 1 / 3) (2 * (1 - r 0) * r 1 / 3) (1 - 2 * r 1 / 3)) r := by
  have n0 := h0.ne'
  have n1 := h1.ne'
  have n2 := h2.ne'
  have n3 := h3.ne'
  have n4 := h4.ne'
  have n5 := h5.ne'
  simp only [D2GDR0R1]
  dd

theorem D2GDR1R1_d0 (t p r0 r1 : ℝ) (h0 : 0 < r0 * (1 - r1)) (h1 : 0 < (1 - r0) * (1 - r1)) (h2 : 0 < r1) (h3 : 0 < 2 * r0 * r1 / 3) (h4 : 0 < 2 * (1 - r0) * r1 / 3) (h5 : 0 < 1 - 2 * r1 / 3) :
    HasDerivAt (fun r0 => D2GDR1R1 t p r0 r1 (r0 * (1 - r1)) ((1 - r0) * (1 - r1)) r1 (2 * r0 * r1 / 3) (2 * (1 - r0) * r1 / 3) (1 - 2 * r1 / 3)) (D3GDR0R1R1 t p r0 r1 (r0 * (1 - r1)) ((1 - r0) * (1 - r1)) r1 (2 * r0 * r1 / 3) (2 * (1 - r0) * r1 / 3) (1 - 2 * r1 / 3)) r0 := by
  have n0 := h0.ne'
  have n1 := h1.ne'
  have n2 := h2.ne'
  have n3 := h3.ne'
  have n4 := h4.ne'
  have n5 := h5.ne'
  have a0 : r0 ≠ 0 := fun h => by simp [h] at n0
  have a1 : 1 - r1 ≠ 0 := fun h => by simp [h] at n0
  have a2 : 1 - r0 ≠ 0 := fun h => by simp [h] at n1
  have a4 : 3 - r1 * 2 ≠ 0 := fun h => n5 (by linarith)
  have a3 : 3 - 2 * r1 ≠ 0 := fun h => n5 (by linarith)
  have l0 := Real.log_mul a0 a1
  have l1 := Real.log_mul a2 a1
  have l2 : Real.log (2 * r0 * r1 / 3) = Real.log r0 + Real.log (2 * r1 / 3) := by
    rw [← Real.log_mul a0 (by positivity)]; ring_nf
  have l3 : Real.log (2 * (1 - r0) * r1 / 3) = Real.log (1 - r0) + Real.log (2 * r1 / 3) := by
    rw [← Real.log_mul a2 (by positivity)]; ring_nf
  have l4 : 1 - 2 * r1 / 3 = (3 - 2 * r1) / 3 := by ring
  simp only [D2GDR1R1, D3GDR0R1R1]
  refine HasDerivAt.congr_deriv (by hd) ?_
  try simp only [l0, l1, l2, l3, l4]
  all_goals first | ring1 | (field_simp; done) | (field_simp; ring1) | (field_simp; ring_nf; field_simp; ring1)

theorem D2GDR1R1_d1 (t p r0 r1 : ℝ) (h0 : 0 < r0 * (1 - r1)) (h1 : 0 < (1 - r0) * (1 - r1)) (h2 : 0 < r1) (h3 : 0 < 2 * r0 * r1 / 3) (h4 : 0 < 2 * (1 - r0) * r1 / 3) (h5 : 0 < 1 - 2 * r1 / 3) :
    HasDerivAt (fun r1 => D2GDR1R1 t p r0 r1 (r0 * (1 - r1)) ((1 - r0) * (1 - r1)) r1 (2 * r0 * r1 / 3) (2 * (1 - r0) * r1 / 3) (1 - 2 * r1 / 3)) (D3GDR1R1R1 t p r0 r1 (r0 * (1 - r1)) ((1 - r0) * (1 - r1)) r1 (2 * r0 * r1 / 3) (2 * (1 - r0) * r1 / 3) (1 - 2 * r1 / 3)) r1 := by
  have n0 := h0.ne'
  have n1 := h1.ne'
  have n2 := h2.ne'
  have n3 := h3.ne'
  have n4 := h4.ne'
  have n5 := h5.ne'
  have a0 : r0 ≠ 0 := fun h => by simp [h] at n0
  have a1 : 1 - r1 ≠ 0 := fun h => by simp [h] at n0
  have a2 : 1 - r0 ≠ 0 := fun h => by simp [h] at n1
  have a4 : 3 - r1 * 2 ≠ 0 := fun h => n5 (by linarith)
  have a3 : 3 - 2 * r1 ≠ 0 := fun h => n5 (by linarith)
  have l0 := Real.log_mul a0 a1
  have l1 := Real.log_mul a2 a1
  have l2 : Real.log (2 * r0 * r1 / 3) = Real.log r0 + Real.log (2 * r1 / 3) := by
    rw [← Real.log_mul a0 (by positivity)]; ring_nf
  have l3 : Real.log (2 * (1 - r0) * r1 / 3) = Real.log (1 - r0) + Real.log (2 * r1 / 3) := by
    rw [← Real.log_mul a2 (by positivity)]; ring_nf
  have l4 : 1 - 2 * r1 / 3 = (3 - 2 * r1) / 3 := by ring
  simp only [D2GDR1R1, D3GDR1R1R1]
  refine HasDerivAt.congr_deriv (by hd) ?_
  try simp only [l0, l1, l2, l3, l4]
  all_goals first | ring1 | (field_simp; done) | (field_simp; ring1) | (field_simp; ring_nf; field_simp; ring1)

theorem D2GDR1R1_diff (t p : ℝ) (r : Fin 2 → ℝ) (h0 : 0 < r 0 * (1 - r 1)) (h1 : 0 < (1 - r 0) * (1 - r 1)) (h2 : 0 < r 1) (h3 : 0 < 2 * r 0 * r 1 / 3) (h4 : 0 < 2 * (1 - r 0) * r 1 / 3) (h5 : 0 < 1 - 2 * r 1 / 3) :
    DifferentiableAt ℝ (fun r : Fin 2 → ℝ => D2GDR1R1 t p (r 0) (r 1) (r 0 * (1 - r 1)) ((1 - r 0) * (1 - r 1)) (r 1) (2 * r 0 * r 1 / 3) (2 * (1 - r 0) * r 1 / 3) (1 - 2 * r 1 / 3)) r := by
  have n0 := h0.ne'
  have n1 := h1.ne'
  have n2 := h2.ne'
  have n3 := h3.ne'
  have n4 := h4.ne'
  have n5 := h5.ne'
  simp only [D2GDR1R1]
  dd

theorem S_d0 (t p r0 r1 : ℝ) (h0 : 0 < r0 * (1 - r1)) (h1 : 0 < (1 - r0) * (1 - r1)) (h2 : 0 < r1) (h3 : 0 < 2 * r0 * r1 / 3) (h4 : 0 < 2 * (1 - r0) * r1 / 3) (h5 : 0 < 1 - 2 * r1 / 3) :
    HasDerivAt (fun r0 => S t p r0 r1 (r0 * (1 - r1)) ((1 - r0) * (1 - r1)) r1 (2 * r0 * r1 / 3) (2 * (1 - r0) * r1 / 3) (1 - 2 * r1 / 3)) (-(D2GDR0DT t p r0 r1 (r0 * (1 - r1)) ((1 - r0) * (1 - r1)) r1 (2 * r0 * r1 / 3) (2 * (1 - r0) * r1 / 3) (1 - 2 * r1 / 3))) r0 := by
  have n0 := h0.ne'
  have n1 := h1.ne'
  have n2 := h2.ne'
  have n3 := h3.ne'
  have n4 := h4.ne'
  have n5 := h5.ne'
  have a0 : r0 ≠ 0 := fun h => by simp [h] at n0
  have a1 : 1 - r1 ≠ 0 := fun h => by simp [h] at n0
  have a2 : 1 - r0 ≠ 0 := fun h => by simp [h] at n1
  have a4 : 3 - r1 * 2 ≠ 0 := fun h => n5 (by linarith)
  have a3 : 3 - 2 * r1 ≠ 0 := fun h => n5 (by linarith)
  have l0 := Real.log_mul a0 a1
  have l1 := Real.log_mul a2 a1
  have l2 : Real.log (2 * r0 * r1 / 3) = Real.log r0 + Real.log (2 * r1 / 3) := by
    rw [← Real.log_mul a0 (by positivity)]; ring_nf
  have l3 : Real.log (2 * (1 - r0) * r1 / 3) = Real.log (1 - r0) + Real.log (2 * r1 / 3) := by
    rw [← Real.log_mul a2 (by positivity)]; ring_nf
  have l4 : 1 - 2 * r1 / 3 = (3 - 2 * r1) / 3 := by ring
  simp only [S, D2GDR0DT]
  refine HasDerivAt.congr_deriv (by hd) ?_
  try simp only [l0, l1, l2, l3, l4]
  all_goals first | ring1 | (field_simp; done) | (field_simp; ring1) | (field_simp; ring_nf; field_simp; ring1)

theorem S_d1 (t p r0 r1 : ℝ) (h0 : 0 < r0 * (1 - r1)) (h1 : 0 < (1 - r0) * (1 - r1)) (h2 : 0 < r1) (h3 : 0 < 2 * r0 * r1 / 3) (h4 : 0 < 2 * (1 - r0) * r1 / 3) (h5 : 0 < 1 - 2 * r1 / 3) :
    HasDerivAt (fun r1 => S t p r0 r1 (r0 * (1 - r1)) ((1 - r0) * (1 - r1)) r1 (2 * r0 * r1 / 3) (2 * (1 - r0) * r1 / 3) (1 - 2 * r1 / 3)) (-(D2GDR1DT t p r0 r1 (r0 * (1 - r1)) ((1 - r0) * (1 - r1)) r1 (2 * r0 * r1 / 3) (2 * (1 - r0) * r1 / 3) (1 - 2 * r1 / 3))) r1 := by
  have n0 := h0.ne'
  have n1 := h1.ne'
  have n2 := h2.ne'
  have n3 := h3.ne'
  have n4 := h4.ne'
  have n5 := h5.ne'
  have a0 : r0 ≠ 0 := fun h => by simp [h] at n0
  have a1 : 1 - r1 ≠ 0 := fun h => by simp [h] at n0
  have a2 : 1 - r0 ≠ 0 := fun h => by simp [h] at n1
  have a4 : 3 - r1 * 2 ≠ 0 := fun h => n5 (by linarith)
  have a3 : 3 - 2 * r1 ≠ 0 := fun h => n5 (by linarith)
  have l0 := Real.log_mul a0 a1
  have l1 := Real.log_mul a2 a1
  have l2 : Real.log (2 * r0 * r1 / 3) = Real.log r0 + Real.log (2 * r1 / 3) := by
    rw [← Real.log_mul a0 (by positivity)]; ring_nf
  have l3 : Real.log (2 * (1 - r0) * r1 / 3) = Real.log (1 - r0) + Real.log (2 * r1 / 3) := by
    rw [← Real.log_mul a2 (by positivity)]; ring_nf
  have l4 : 1 - 2 * r1 / 3 = (3 - 2 * r1) / 3 := by ring
  simp only [S, D2GDR1DT]
  refine HasDerivAt.congr_deriv (by hd) ?_
  try simp only [l0, l1, l2, l3, l4]
  all_goals first | ring1 | (field_simp; done) | (field_simp; ring1) | (field_simp; ring_nf; field_simp; ring1)

theorem S_diff (t p : ℝ) (r : Fin 2 → ℝ) (h0 : 0 < r 0 * (1 - r 1)) (h1 : 0 < (1 - r 0) * (1 - r 1)) (h2 : 0 < r 1) (h3 : 0 < 2 * r 0 * r 1 / 3) (h4 : 0 < 2 * (1 - r 0) * r 1 / 3) (h5 : 0 < 1 - 2 * r 1 / 3) :
    DifferentiableAt ℝ (fun r : Fin 2 → ℝ => S t p (r 0) (r 1) (r 0 * (1 - r 1)) ((1 - r 0) * (1 - r 1)) (r 1) (2 * r 0 * r 1 / 3) (2 * (1 - r 0) * r 1 / 3) (1 - 2 * r 1 / 3)) r := by
  have n0 := h0.ne'
  have n1 := h1.ne'
  have n2 := h2.ne'
  have n3 := h3.ne'
  have n4 := h4.ne'
  have n5 := h5.ne'
  simp only [S]
  dd

theorem D2GDR0DT_d0 (t p r0 r1 : ℝ) (h0 : 0 < r0 * (1 - r1)) (h1 : 0 < (1 - r0) * (1 - r1)) (h2 : 0 < r1) (h3 : 0 < 2 * r0 * r1 / 3) (h4 : 0 < 2 * (1 - r0) * r1 / 3) (h5 : 0 < 1 - 2 * r1 / 3) :
    HasDerivAt (fun r0 => D2GDR0DT t p r0 r1 (r0 * (1 - r1)) ((1 - r0) * (1 - r1)) r1 (2 * r0 * r1 / 3) (2 * (1 - r0) * r1 / 3) (1 - 2 * r1 / 3)) (D3GDR0R0DT t p r0 r1 (r0 * (1 - r1)) ((1 - r0) * (1 - r1)) r1 (2 * r0 * r1 / 3) (2 * (1 - r0) * r1 / 3) (1 - 2 * r1 / 3)) r0 := by
  have n0 := h0.ne'
  have n1 := h1.ne'
  have n2 := h2.ne'
  have n3 := h3.ne'
  have n4 := h4.ne'
  have n5 := h5.ne'
  have a0 : r0 ≠ 0 := fun h => by simp [h] at n0
  have a1 : 1 - r1 ≠ 0 := fun h => by simp [h] at n0
  have a2 : 1 - r0 ≠ 0 := fun h => by simp [h] at n1
  have a4 : 3 - r1 * 2 ≠ 0 := fun h => n5 (by linarith)
  have a3 : 3 - 2 * r1 ≠ 0 := fun h => n5 (by linarith)
  have l0 := Real.log_mul a0 a1
  have l1 := Real.log_mul a2 a1
  have l2 : Real.log (2 * r0 * r1 / 3) = Real.log r0 + Real.log (2 * r1 / 3) := by
    rw [← Real.log_mul a0 (by positivity)]; ring_nf
  have l3 : Real.log (2 * (1 - r0) * r1 / 3) = Real.log (1 - r0) + Real.log (2 * r1 / 3) := by
    rw [← Real.log_mul a2 (by positivity)]; ring_nf
  have l4 : 1 - 2 * r1 / 3 = (3 - 2 * r1) / 3 := by ring
  simp only [D2GDR0DT, D3GDR0R0DT]
  refine HasDerivAt.congr_deriv (by hd) ?_
  try simp only [l0, l1, l2, l3, l4]
  all_goals first | ring1 | (field_simp; done) | (field_simp; ring1) | (field_simp; ring_nf; field_simp; ring1)

theorem D2GDR0DT_d1 (t p r0 r1 : ℝ) (h0 : 0 < r0 * (1 - r1)) (h1 : 0 < (1 - r0) * (1 - r1)) (h2 : 0 < r1) (h3 : 0 < 2 * r0 * r1 / 3) (h4 : 0 < 2 * (1 - r0) * r1 / 3) (h5 : 0 < 1 - 2 * r1 / 3) :
    HasDerivAt (fun r1 => D2GDR0DT t p r0 r1 (r0 * (1 - r1)) ((1 - r0) * (1 - r1)) r1 (2 * r0 * r1 / 3) (2 * (1 - r0) * r1 / 3) (1 - 2 * r1 / 3)) (D3GDR0R1DT t p r0 r1 (r0 * (1 - r1)) ((1 - r0) * (1 - r1)) r1 (2 * r0 * r1 / 3) (2 * (1 - r0) * r1 / 3) (1 - 2 * r1 / 3)) r1 := by
  have n0 := h0.ne'
  have n1 := h1.ne'
  have n2 := h2.ne'
  have n3 := h3.ne'
  have n4 := h4.ne'
  have n5 := h5.ne'
  have a0 : r0 ≠ 0 := fun h => by simp [h] at n0
  have a1 : 1 - r1 ≠ 0 := fun h => by simp [h] at n0
  have a2 : 1 - r0 ≠ 0 := fun h => by simp [h] at n1
  have a4 : 3 - r1 * 2 ≠ 0 := fun h => n5 (by linarith)
  have a3 : 3 - 2 * r1 ≠ 0 := fun h => n5 (by linarith)
  have l0 := Real.log_mul a0 a1
  have l1 := Real.log_mul a2 a1
  have l2 : Real.log (2 * r0 * r1 / 3) = Real.log r0 + Real.log (2 * r1 / 3) := by
    rw [← Real.log_mul a0 (by positivity)]; ring_nf
  have l3 : Real.log (2 * (1 - r0) * r1 / 3) = Real.log (1 - r0) + Real.log (2 * r1 / 3) := by
    rw [← Real.log_mul a2 (by positivity)]; ring_nf
  have l4 : 1 - 2 * r1 / 3 = (3 - 2 * r1) / 3 := by ring
  simp only [D2GDR0DT, D3GDR0R1DT]
  refine HasDerivAt.congr_deriv (by hd) ?_
  try simp only [l0, l1, l2, l3, l4]
  all_goals first | ring1 | (field_simp; done) | (field_simp; ring1) | (field_simp; ring_nf; field_simp; ring1)

theorem D2GDR0DT_diff (t p : ℝ) (r : Fin 2 → ℝ) (h0 : 0 < r 0 * (1 - r 1)) (h1 : 0 < (1 - r 0) * (1 - r 1)) (h2 : 0 < r 1) (h3 : 0 < 2 * r 0 * r 1 / 3) (h4 : 0 < 2 * (1 - r 0) * r 1 / 3) (h5 : 0 < 1 - 2 * r 1 / 3) :
    DifferentiableAt ℝ (fun r : Fin 2 → ℝ => D2GDR0DT t p (r 0) (r 1) (r 0 * (1 - r 1)) ((1 - r 0) * (1 - r 1)) (r 1) (2 * r 0 * r 1 / 3) (2 * (1 - r 0) * r 1 / 3) (1 - 2 * r 1 / 3)) r := by
  have n0 := h0.ne'
  have n1 := h1.ne'
  have n2 := h2.ne'
  have n3 := h3.ne'
  have n4 := h4.ne'
  have n5 := h5.ne'
  simp only [D2GDR0DT]
  dd

theorem D2GDR1DT_d0 (t p r0 r1 : ℝ) (h0 : 0 < r0 * (1 - r1)) (h1 : 0 < (1 - r0) * (1 - r1)) (h2 : 0 < r1) (h3 : 0 < 2 * r0 * r1 / 3) (h4 : 0 < 2 * (1 - r0) * r1 / 3) (h5 : 0 < 1 - 2 * r1 / 3) :
    HasDerivAt (fun r0 => D2GDR1DT t p r0 r1 (r0 * (1 - r1)) ((1 - r0) * (1 - r1)) r1 (2 * r0 * r1 / 3) (2 * (1 - r0) * r1 / 3) (1 - 2 * r1 / 3)) (D3GDR0R1DT t p r0 r1 (r0 * (1 - r1)) ((1 - r0) * (1 - r1)) r1 (2 * r0 * r1 / 3) (2 * (1 - r0) * r1 / 3) (1 - 2 * r1 / 3)) r0 := by
  have n0 := h0.ne'
  have n1 := h1.ne'
  have n2 := h2.ne'
  have n3 := h3.ne'
  have n4 := h4.ne'
  have n5 := h5.ne'
  have a0 : r0 ≠ 0 := fun h => by simp [h] at n0
  have a1 : 1 - r1 ≠ 0 := fun h => by simp [h] at n0
  have a2 : 1 - r0 ≠ 0 := fun h => by simp [h] at n1
  have a4 : 3 - r1 * 2 ≠ 0 := fun h => n5 (by linarith)
  have a3 : 3 - 2 * r1 ≠ 0 := fun h => n5 (by linarith)
  have l0 := Real.log_mul a0 a1
  have l1 := Real.log_mul a2 a1
  have l2 : Real.log (2 * r0 * r1 / 3) = Real.log r0 + Real.log (2 * r1 / 3) := by
    rw [← Real.log_mul a0 (by positivity)]; ring_nf
  have l3 : Real.log (2 * (1 - r0) * r1 / 3) = Real.log (1 - r0) + Real.log (2 * r1 / 3) := by
    rw [← Real.log_mul a2 (by positivity)]; ring_nf
  have l4 : 1 - 2 * r1 / 3 = (3 - 2 * r1) / 3 := by ring
  simp only [D2GDR1DT, D3GDR0R1DT]
  refine HasDerivAt.congr_deriv (by hd) ?_
  try simp only [l0, l1, l2, l3, l4]
  all_goals first | ring1 | (field_simp; done) | (field_simp; ring1) | (field_simp; ring_nf; field_simp; ring1)

theorem D2GDR1DT_d1 (t p r0 r1 : ℝ) (h0 : 0 < r0 * (1 - r1)) (h1 : 0 < (1 - r0) * (1 - r1)) (h2 : 0 < r1) (h3 : 0 < 2 * r0 * r1 / 3) (h4 : 0 < 2 * (1 - r0) * r1 / 3) (h5 : 0 < 1 - 2 * r1 / 3) :
    HasDerivAt (fun r1 => D2GDR1DT t p r0 r1 (r0 * (1 - r1)) ((1 - r0) * (1 - r1)) r1 (2 * r0 * r1 / 3) (2 * (1 - r0) * r1 / 3) (1 - 2 * r1 / 3)) (D3GDR1R1DT t p r0 r1 (r0 * (1 - r1)) ((1 - r0) * (1 - r1)) r1 (2 * r0 * r1 / 3) (2 * (1 - r0) * r1 / 3) (1 - 2 * r1 / 3)) r1 := by
  have n0 := h0.ne'
  have n1 := h1.ne'
  have n2 := h2.ne'
  have n3 := h3.ne'
  have n4 := h4.ne'
  have n5 := h5.ne'
  have a0 : r0 ≠ 0 := fun h => by simp [h] at n0
  have a1 : 1 - r1 ≠ 0 := fun h => by simp [h] at n0
  have a2 : 1 - r0 ≠ 0 := fun h => by simp [h] at n1
  have a4 : 3 - r1 * 2 ≠ 0 := fun h => n5 (by linarith)
  have a3 : 3 - 2 * r1 ≠ 0 := fun h => n5 (by linarith)
  have l0 := Real.log_mul a0 a1
  have l1 := Real.log_mul a2 a1
  have l2 : Real.log (2 * r0 * r1 / 3) = Real.log r0 + Real.log (2 * r1 / 3) := by
    rw [← Real.log_mul a0 (by positivity)]; ring_nf
  have l3 : Real.log (2 * (1 - r0) * r1 / 3) = Real.log (1 - r0) + Real.log (2 * r1 / 3) := by
    rw [← Real.log_mul a2 (by positivity)]; ring_nf
  have l4 : 1 - 2 * r1 / 3 = (3 - 2 * r1) / 3 := by ring
  simp only [D2GDR1DT, D3GDR1R1DT]
  refine HasDerivAt.congr_deriv (by hd) ?_
  try simp only [l0, l1, l2, l3, l4]
  all_goals first | ring1 | (field_simp; done) | (field_simp; ring1) | (field_simp; ring_nf; field_simp; ring1)

theorem D2GDR1DT_diff (t p : ℝ) (r : Fin 2 → ℝ) (h0 : 0 < r 0 * (1 - r 1)) (h1 : 0 < (1 - r 0) * (1 - r 1)) (h2 : 0 < r 1) (h3 : 0 < 2 * r 0 * r 1 / 3) (h4 : 0 < 2 * (1 - r 0) * r 1 / 3) (h5 : 0 < 1 - 2 * r 1 / 3) :
    DifferentiableAt ℝ (fun r : Fin 2 → ℝ => D2GDR1DT t p (r 0) (r 1) (r 0 * (1 - r 1)) ((1 - r 0) * (1 - r 1)) (r 1) (2 * r 0 * r 1 / 3) (2 * (1 - r 0) * r 1 / 3) (1 - 2 * r 1 / 3)) r := by
  have n0 := h0.ne'
  have n1 := h1.ne'
  have n2 := h2.ne'
  have n3 := h3.ne'
  have n4 := h4.ne'
  have n5 := h5.ne'
  simp only [D2GDR1DT]
  dd

theorem DGDP_d0 (t p r0 r1 : ℝ) (h0 : 0 < r0 * (1 - r1)) (h1 : 0 < (1 - r0) * (1 - r1)) (h2 : 0 < r1) (h3 : 0 < 2 * r0 * r1 / 3) (h4 : 0 < 2 * (1 - r0) * r1 / 3) (h5 : 0 < 1 - 2 * r1 / 3) :
    HasDerivAt (fun r0 => DGDP t p r0 r1 (r0 * (1 - r1)) ((1 - r0) * (1 - r1)) r1 (2 * r0 * r1 / 3) (2 * (1 - r0) * r1 / 3) (1 - 2 * r1 / 3)) (D2GDR0DP t p r0 r1 (r0 * (1 - r1)) ((1 - r0) * (1 - r1)) r1 (2 * r0 * r1 / 3) (2 * (1 - r0) * r1 / 3) (1 - 2 * r1 / 3)) r0 := by
  have n0 := h0.ne'
  have n1 := h1.ne'
  have n2 := h2.ne'
  have n3 := h3.ne'
  have n4 := h4.ne'
  have n5 := h5.ne'
  have a0 : r0 ≠ 0 := fun h => by simp [h] at n0
  have a1 : 1 - r1 ≠ 0 := fun h => by simp [h] at n0
  have a2 : 1 - r0 ≠ 0 := fun h => by simp [h] at n1
  have a4 : 3 - r1 * 2 ≠ 0 := fun h => n5 (by linarith)
  have a3 : 3 - 2 * r1 ≠ 0 := fun h => n5 (by linarith)
  have l0 := Real.log_mul a0 a1
  have l1 := Real.log_mul a2 a1
  have l2 : Real.log (2 * r0 * r1 / 3) = Real.log r0 + Real.log (2 * r1 / 3) := by
    rw [← Real.log_mul a0 (by positivity)]; ring_nf
  have l3 : Real.log (2 * (1 - r0) * r1 / 3) = Real.log (1 - r0) + Real.log (2 * r1 / 3) := by
    rw [← Real.log_mul a2 (by positivity)]; ring_nf
  have l4 : 1 - 2 * r1 / 3 = (3 - 2 * r1) / 3 := by ring
  simp only [V, DGDP, D2GDR0DP]
  refine HasDerivAt.congr_deriv (by hd) ?_
  try simp only [l0, l1, l2, l3, l4]
  all_goals first | ring1 | (field_simp; done) | (field_simp; ring1) | (field_simp; ring_nf; field_simp; ring1)

theorem DGDP_d1 (t p r0 r1 : ℝ) (h0 : 0 < r0 * (1 - r1)) (h1 : 0 < (1 - r0) * (1 - r1)) (h2 : 0 < r1) (h3 : 0 < 2 * r0 * r1 / 3) (h4 : 0 < 2 * (1 - r0) * r1 / 3) (h5 : 0 < 1 - 2 * r1 / 3) :
    HasDerivAt (fun r1 => DGDP t p r0 r1 (r0 * (1 - r1)) ((1 - r0) * (1 - r1)) r1 (2 * r0 * r1 / 3) (2 * (1 - r0) * r1 / 3) (1 - 2 * r1 / 3)) (D2GDR1DP t p r0 r1 (r0 * (1 - r1)) ((1 - r0) * (1 - r1)) r1 (2 * r0 * r1 / 3) (2 * (1 - r0) * r1 / 3) (1 - 2 * r1 / 3)) r1 := by
  have n0 := h0.ne'
  have n1 := h1.ne'
  have n2 := h2.ne'
  have n3 := h3.ne'
  have n4 := h4.ne'
  have n5 := h5.ne'
  have a0 : r0 ≠ 0 := fun h => by simp [h] at n0
  have a1 : 1 - r1 ≠ 0 := fun h => by simp [h] at n0
  have a2 : 1 - r0 ≠ 0 := fun h => by simp [h] at n1
  have a4 : 3 - r1 * 2 ≠ 0 := fun h => n5 (by linarith)
  have a3 : 3 - 2 * r1 ≠ 0 := fun h => n5 (by linarith)
  have l0 := Real.log_mul a0 a1
  have l1 := Real.log_mul a2 a1
  have l2 : Real.log (2 * r0 * r1 / 3) = Real.log r0 + Real.log (2 * r1 / 3) := by
    rw [← Real.log_mul a0 (by positivity)]; ring_nf
  have l3 : Real.log (2 * (1 - r0) * r1 / 3) = Real.log (1 - r0) + Real.log (2 * r1 / 3) := by
    rw [← Real.log_mul a2 (by positivity)]; ring_nf
  have l4 : 1 - 2 * r1 / 3 = (3 - 2 * r1) / 3 := by ring
  simp only [V, DGDP, D2GDR1DP]
  refine HasDerivAt.congr_deriv (by hd) ?_
  try simp only [l0, l1, l2, l3, l4]
  all_goals first | ring1 | (field_simp; done) | (field_simp; ring1) | (field_simp; ring_nf; field_simp; ring1)

theorem DGDP_diff (t p : ℝ) (r : Fin 2 → ℝ) (h0 : 0 < r 0 * (1 - r 1)) (h1 : 0 < (1 - r 0) * (1 - r 1)) (h2 : 0 < r 1) (h3 : 0 < 2 * r 0 * r 1 / 3) (h4 : 0 < 2 * (1 - r 0) * r 1 / 3) (h5 : 0 < 1 - 2 * r 1 / 3) :
    DifferentiableAt ℝ (fun r : Fin 2 → ℝ => DGDP t p (r 0) (r 1) (r 0 * (1 - r 1)) ((1 - r 0) * (1 - r 1)) (r 1) (2 * r 0 * r 1 / 3) (2 * (1 - r 0) * r 1 / 3) (1 - 2 * r 1 / 3)) r := by
  have n0 := h0.ne'
  have n1 := h1.ne'
  have n2 := h2.ne'
  have n3 := h3.ne'
  have n4 := h4.ne'
  have n5 := h5.ne'
  simp only [V, DGDP]
  dd

theorem D2GDR0DP_d0 (t p r0 r1 : ℝ) (h0 : 0 < r0 * (1 - r1)) (h1 : 0 < (1 - r0) * (1 - r1)) (h2 : 0 < r1) (h3 : 0 < 2 * r0 * r1 / 3) (h4 : 0 < 2 * (1 - r0) * r1 / 3) (h5 : 0 < 1 - 2 * r1 / 3) :
    HasDerivAt (fun r0 => D2GDR0DP t p r0 r1 (r0 * (1 - r1)) ((1 - r0) * (1 - r1)) r1 (2 * r0 * r1 / 3) (2 * (1 - r0) * r1 / 3) (1 - 2 * r1 / 3)) (D3GDR0R0DP t p r0 r1 (r0 * (1 - r1)) ((1 - r0) * (1 - r1)) r1 (2 * r0 * r1 / 3) (2 * (1 - r0) * r1 / 3) (1 - 2 * r1 / 3)) r0 := by
  have n0 := h0.ne'
  have n1 := h1.ne'
  have n2 := h2.ne'
  have n3 := h3.ne'
  have n4 := h4.ne'
  have n5 := h5.ne'
  have a0 : r0 ≠ 0 := fun h => by simp [h] at n0
  have a1 : 1 - r1 ≠ 0 := fun h => by simp [h] at n0
  have a2 : 1 - r0 ≠ 0 := fun h => by simp [h] at n1
  have a4 : 3 - r1 * 2 ≠ 0 := fun h => n5 (by linarith)
  have a3 : 3 - 2 * r1 ≠ 0 := fun h => n5 (by linarith)
  have l0 := Real.log_mul a0 a1
  have l1 := Real.log_mul a2 a1
  have l2 : Real.log (2 * r0 * r1 / 3) = Real.log r0 + Real.log (2 * r1 / 3) := by
    rw [← Real.log_mul a0 (by positivity)]; ring_nf
  have l3 : Real.log (2 * (1 - r0) * r1 / 3) = Real.log (1 - r0) + Real.log (2 * r1 / 3) := by
    rw [← Real.log_mul a2 (by positivity)]; ring_nf
  have l4 : 1 - 2 * r1 / 3 = (3 - 2 * r1) / 3 := by ring
  simp only [D2GDR0DP, D3GDR0R0DP]
  refine HasDerivAt.congr_deriv (by hd) ?_
  try simp only [l0, l1, l2, l3, l4]
  all_goals first | ring1 | (field_simp; done) | (field_simp; ring1) | (field_simp; ring_nf; field_simp; ring1)

theorem D2GDR0DP_d1 (t p r0 r1 : ℝ) (h0 : 0 < r0 * (1 - r1)) (h1 : 0 < (1 - r0) * (1 - r1)) (h2 : 0 < r1) (h3 : 0 < 2 * r0 * r1 / 3) (h4 : 0 < 2 * (1 - r0) * r1 / 3) (h5 : 0 < 1 - 2 * r1 / 3) :
    HasDerivAt (fun r1 => D2GDR0DP t p r0 r1 (r0 * (1 - r1)) ((1 - r0) * (1 - r1)) r1 (2 * r0 * r1 / 3) (2 * (1 - r0) * r1 / 3) (1 - 2 * r1 / 3)) (D3GDR0R1DP t p r0 r1 (r0 * (1 - r1)) ((1 - r0) * (1 - r1)) r1 (2 * r0 * r1 / 3) (2 * (1 - r0) * r1 / 3) (1 - 2 * r1 / 3)) r1 := by
  have n0 := h0.ne'
  have n1 := h1.ne'
  have n2 := h2.ne'
  have n3 := h3.ne'
  have n4 := h4.ne'
  have n5 := h5.ne'
  have a0 : r0 ≠ 0 := fun h => by simp [h] at n0
  have a1 : 1 - r1 ≠ 0 := fun h => by simp [h] at n0
  have a2 : 1 - r0 ≠ 0 := fun h => by simp [h] at n1
  have a4 : 3 - r1 * 2 ≠ 0 := fun h => n5 (by linarith)
  have a3 : 3 - 2 * r1 ≠ 0 := fun h => n5 (by linarith)
  have l0 := Real.log_mul a0 a1
  have l1 := Real.log_mul a2 a1
  have l2 : Real.log (2 * r0 * r1 / 3) = Real.log r0 + Real.log (2 * r1 / 3) := by
    rw [← Real.log_mul a0 (by positivity)]; ring_nf
  have l3 : Real.log (2 * (1 - r0) * r1 / 3) = Real.log (1 - r0) + Real.log (2 * r1 / 3) := by
    rw [← Real.log_mul a2 (by positivity)]; ring_nf
  have l4 : 1 - 2 * r1 / 3 = (3 - 2 * r1) / 3 := by ring
  simp only [D2GDR0DP, D3GDR0R1DP]
  refine HasDerivAt.congr_deriv (by hd) ?_
  try simp only [l0, l1, l2, l3, l4]
  all_goals first | ring1 | (field_simp; done) | (field_simp; ring1) | (field_simp; ring_nf; field_simp; ring1)

theorem D2GDR0DP_diff (t p : ℝ) (r : Fin 2 → ℝ) (h0 : 0 < r 0 * (1 - r 1)) (h1 : 0 < (1 - r 0) * (1 - r 1)) (h2 : 0 < r 1) (h3 : 0 < 2 * r 0 * r 1 / 3) (h4 : 0 < 2 * (1 - r 0) * r 1 / 3) (h5 : 0 < 1 - 2 * r 1 / 3) :
    DifferentiableAt ℝ (fun r : Fin 2 → ℝ => D2GDR0DP t p (r 0) (r 1) (r 0 * (1 - r 1)) ((1 - r 0) * (1 - r 1)) (r 1) (2 * r 0 * r 1 / 3) (2 * (1 - r 0) * r 1 / 3) (1 - 2 * r 1 / 3)) r := by
  have n0 := h0.ne'
  have n1 := h1.ne'
  have n2 := h2.ne'
  have n3 := h3.ne'
  have n4 := h4.ne'
  have n5 := h5.ne'
  simp only [D2GDR0DP]
  dd

theorem D2GDR1DP_d0 (t p r0 r1 : ℝ) (h0 : 0 < r0 * (1 - r1)) (h1 : 0 < (1 - r0) * (1 - r1)) (h2 : 0 < r1) (h3 : 0 < 2 * r0 * r1 / 3) (h4 : 0 < 2 * (1 - r0) * r1 / 3) (h5 : 0 < 1 - 2 * r1 / 3) :
    HasDerivAt (fun r0 => D2GDR1DP t p r0 r1 (r0 * (1 - r1)) ((1 - r0) * (1 - r1)) r1 (2 * r0 * r1 / 3) (2 * (1 - r0) * r1 / 3) (1 - 2 * r1 / 3)) (D3GDR0R1DP t p r0 r1 (r0 * (1 - r1)) ((1 - r0) * (1 - r1)) r1 (2 * r0 * r1 / 3) (2 * (1 - r0) * r1 / 3) (1 - 2 * r1 / 3)) r0 := by
  have n0 := h0.ne'
  have n1 := h1.ne'
  have n2 := h2.ne'
  have n3 := h3.ne'
  have n4 := h4.ne'
  have n5 := h5.ne'
  have a0 : r0 ≠ 0 := fun h => by simp [h] at n0
  have a1 : 1 - r1 ≠ 0 := fun h => by simp [h] at n0
  have a2 : 1 - r0 ≠ 0 := fun h => by simp [h] at n1
  have a4 : 3 - r1 * 2 ≠ 0 := fun h => n5 (by linarith)
  have a3 : 3 - 2 * r1 ≠ 0 := fun h => n5 (by linarith)
  have l0 := Real.log_mul a0 a1
  have l1 := Real.log_mul a2 a1
  have l2 : Real.log (2 * r0 * r1 / 3) = Real.log r0 + Real.log (2 * r1 / 3) := by
    rw [← Real.log_mul a0 (by positivity)]; ring_nf
  have l3 : Real.log (2 * (1 - r0) * r1 / 3) = Real.log (1 - r0) + Real.log (2 * r1 / 3) := by
    rw [← Real.log_mul a2 (by positivity)]; ring_nf
  have l4 : 1 - 2 * r1 / 3 = (3 - 2 * r1) / 3 := by ring
  simp only [D2GDR1DP, D3GDR0R1DP]
  refine HasDerivAt.congr_deriv (by hd) ?_
  try simp only [l0, l1, l2, l3, l4]
  all_goals first | ring1 | (field_simp; done) | (field_simp; ring1) | (field_simp; ring_nf; field_simp; ring1)

theorem D2GDR1DP_d1 (t p r0 r1 : ℝ) (h0 : 0 < r0 * (1 - r1)) (h1 : 0 < (1 - r0) * (1 - r1)) (h2 : 0 < r1) (h3 : 0 < 2 * r0 * r1 / 3) (h4 : 0 < 2 * (1 - r0) * r1 / 3) (h5 : 0 < 1 - 2 * r1 / 3) :
    HasDerivAt (fun r1 => D2GDR1DP t p r0 r1 (r0 * (1 - r1)) ((1 - r0) * (1 - r1)) r1 (2 * r0 * r1 / 3) (2 * (1 - r0) * r1 / 3) (1 - 2 * r1 / 3)) (D3GDR1R1DP t p r0 r1 (r0 * (1 - r1)) ((1 - r0) * (1 - r1)) r1 (2 * r0 * r1 / 3) (2 * (1 - r0) * r1 / 3) (1 - 2 * r1 / 3)) r1 := by
  have n0 := h0.ne'
  have n1 := h1.ne'
  have n2 := h2.ne'
  have n3 := h3.ne'
  have n4 := h4.ne'
  have n5 := h5.ne'
  have a0 : r0 ≠ 0 := fun h => by simp [h] at n0
  have a1 : 1 - r1 ≠ 0 := fun h => by simp [h] at n0
  have a2 : 1 - r0 ≠ 0 := fun h => by simp [h] at n1
  have a4 : 3 - r1 * 2 ≠ 0 := fun h => n5 (by linarith)
  have a3 : 3 - 2 * r1 ≠ 0 := fun h => n5 (by linarith)
  have l0 := Real.log_mul a0 a1
  have l1 := Real.log_mul a2 a1
  have l2 : Real.log (2 * r0 * r1 / 3) = Real.log r0 + Real.log (2 * r1 / 3) := by
    rw [← Real.log_mul a0 (by positivity)]; ring_nf
  have l3 : Real.log (2 * (1 - r0) * r1 / 3) = Real.log (1 - r0) + Real.log (2 * r1 / 3) := by
    rw [← Real.log_mul a2 (by positivity)]; ring_nf
  have l4 : 1 - 2 * r1 / 3 = (3 - 2 * r1) / 3 := by ring
  simp only [D2GDR1DP, D3GDR1R1DP]
  refine HasDerivAt.congr_deriv (by hd) ?_
  try simp only [l0, l1, l2, l3, l4]
  all_goals first | ring1 | (field_simp; done) | (field_simp; ring1) | (field_simp; ring_nf; field_simp; ring1)

theorem D2GDR1DP_diff (t p : ℝ) (r : Fin 2 → ℝ) (h0 : 0 < r 0 * (1 - r 1)) (h1 : 0 < (1 - r 0) * (1 - r 1)) (h2 : 0 < r 1) (h3 : 0 < 2 * r 0 * r 1 / 3) (h4 : 0 < 2 * (1 - r 0) * r 1 / 3) (h5 : 0 < 1 - 2 * r 1 / 3) :
    DifferentiableAt ℝ (fun r : Fin 2 → ℝ => D2GDR1DP t p (r 0) (r 1) (r 0 * (1 - r 1)) ((1 - r 0) * (1 - r 1)) (r 1) (2 * r 0 * r 1 / 3) (2 * (1 - r 0) * r 1 / 3) (1 - 2 * r 1 / 3)) r := by
  have n0 := h0.ne'
  have n1 := h1.ne'
  have n2 := h2.ne'
  have n3 := h3.ne'
  have n4 := h4.ne'
  have n5 := h5.ne'
  simp only [D2GDR1DP]
  dd

set_option maxHeartbeats 1600000 in
theorem consistent_raw : (ofSites F raw).Consistent (Interior raw) := by
  have posr : ∀ r, Interior raw r → ∀ k, 0 < raw r k := fun r hr k => lt_trans eps_pos (hr k)
  constructor
  · intro t p r hr
    have pos := posr r hr
    refine grad_of_partials (G_diff t p r (pos 0) (pos 1) (pos 2) (pos 3) (pos 4) (pos 5)) fun j => partial_of_update ?_
    fin_cases j
    · exact (G_d0 t p (r 0) (r 1) (pos 0) (pos 1) (pos 2) (pos 3) (pos 4) (pos 5))
    · exact (G_d1 t p (r 0) (r 1) (pos 0) (pos 1) (pos 2) (pos 3) (pos 4) (pos 5))
  · intro t p r hr i
    have pos := posr r hr
    fin_cases i
    · skip
      refine grad_of_partials (DGDR0_diff t p r (pos 0) (pos 1) (pos 2) (pos 3) (pos 4) (pos 5)) fun j => partial_of_update ?_
      fin_cases j
      · exact (DGDR0_d0 t p (r 0) (r 1) (pos 0) (pos 1) (pos 2) (pos 3) (pos 4) (pos 5))
      · exact (DGDR0_d1 t p (r 0) (r 1) (pos 0) (pos 1) (pos 2) (pos 3) (pos 4) (pos 5))
    · skip
      refine grad_of_partials (DGDR1_diff t p r (pos 0) (pos 1) (pos 2) (pos 3) (pos 4) (pos 5)) fun j => partial_of_update ?_
      fin_cases j
      · exact (DGDR1_d0 t p (r 0) (r 1) (pos 0) (pos 1) (pos 2) (pos 3) (pos 4) (pos 5))
      · exact (DGDR1_d1 t p (r 0) (r 1) (pos 0) (pos 1) (pos 2) (pos 3) (pos 4) (pos 5))
  · intro t p r hr i j
    have pos := posr r hr
    fin_cases i <;> fin_cases j
    · skip
      refine grad_of_partials (D2GDR0R0_diff t p r (pos 0) (pos 1) (pos 2) (pos 3) (pos 4) (pos 5)) fun j => partial_of_update ?_
      fin_cases j
      · exact (D2GDR0R0_d0 t p (r 0) (r 1) (pos 0) (pos 1) (pos 2) (pos 3) (pos 4) (pos 5))
      · exact (D2GDR0R0_d1 t p (r 0) (r 1) (pos 0) (pos 1) (pos 2) (pos 3) (pos 4) (pos 5))
    · skip
      refine grad_of_partials (D2GDR0R1_diff t p r (pos 0) (pos 1) (pos 2) (pos 3) (pos 4) (pos 5)) fun j => partial_of_update ?_
      fin_cases j
      · exact (D2GDR0R1_d0 t p (r 0) (r 1) (pos 0) (pos 1) (pos 2) (pos 3) (pos 4) (pos 5))
      · exact (D2GDR0R1_d1 t p (r 0) (r 1) (pos 0) (pos 1) (pos 2) (pos 3) (pos 4) (pos 5))
    · skip
      refine grad_of_partials (D2GDR0R1_diff t p r (pos 0) (pos 1) (pos 2) (pos 3) (pos 4) (pos 5)) fun j => partial_of_update ?_
      fin_cases j
      · exact (D2GDR0R1_d0 t p (r 0) (r 1) (pos 0) (pos 1) (pos 2) (pos 3) (pos 4) (pos 5))
      · exact (D2GDR0R1_d1 t p (r 0) (r 1) (pos 0) (pos 1) (pos 2) (pos 3) (pos 4) (pos 5))
    · skip
      refine grad_of_partials (D2GDR1R1_diff t p r (pos 0) (pos 1) (pos 2) (pos 3) (pos 4) (pos 5)) fun j => partial_of_update ?_
      fin_cases j
      · exact (D2GDR1R1_d0 t p (r 0) (r 1) (pos 0) (pos 1) (pos 2) (pos 3) (pos 4) (pos 5))
      · exact (D2GDR1R1_d1 t p (r 0) (r 1) (pos 0) (pos 1) (pos 2) (pos 3) (pos 4) (pos 5))
  · intro t p r hr
    simp only [ofSites, F, H, S, V, G]
    refine HasDerivAt.congr_deriv (by hd) ?_
    ring
  · intro t p r hr; rfl
  · intro t p r hr
    have pos := posr r hr
    refine grad_of_partials (S_diff t p r (pos 0) (pos 1) (pos 2) (pos 3) (pos 4) (pos 5)) fun j => partial_of_update ?_
    fin_cases j
    · exact S_d0 t p (r 0) (r 1) (pos 0) (pos 1) (pos 2) (pos 3) (pos 4) (pos 5)
    · exact S_d1 t p (r 0) (r 1) (pos 0) (pos 1) (pos 2) (pos 3) (pos 4) (pos 5)
  · intro t p r hr i
    have pos := posr r hr
    fin_cases i
    · skip
      refine grad_of_partials ((D2GDR0DT_diff t p r (pos 0) (pos 1) (pos 2) (pos 3) (pos 4) (pos 5)).fun_neg) fun j => partial_of_update ?_
      fin_cases j
      · exact ((D2GDR0DT_d0 t p (r 0) (r 1) (pos 0) (pos 1) (pos 2) (pos 3) (pos 4) (pos 5))).fun_neg
      · exact ((D2GDR0DT_d1 t p (r 0) (r 1) (pos 0) (pos 1) (pos 2) (pos 3) (pos 4) (pos 5))).fun_neg
    · skip
      refine grad_of_partials ((D2GDR1DT_diff t p r (pos 0) (pos 1) (pos 2) (pos 3) (pos 4) (pos 5)).fun_neg) fun j => partial_of_update ?_
      fin_cases j
      · exact ((D2GDR1DT_d0 t p (r 0) (r 1) (pos 0) (pos 1) (pos 2) (pos 3) (pos 4) (pos 5))).fun_neg
      · exact ((D2GDR1DT_d1 t p (r 0) (r 1) (pos 0) (pos 1) (pos 2) (pos 3) (pos 4) (pos 5))).fun_neg
  · intro t p r hr
    simp only [ofSites, F, H, S, V, G, D2GDT2]
    refine HasDerivAt.congr_deriv (by hd) ?_
    ring
  · intro t p r hr
    simp only [ofSites, F, D2GDT2, D3GDT3]
    refine HasDerivAt.congr_deriv (by hd) ?_
    ring
  · intro t p r hr
    refine grad_of_partials ?_ fun j => partial_of_update ?_
    · simp only [ofSites, F, D2GDT2]; dd
    · fin_cases j
      · change HasDerivAt (fun _ : ℝ => -t * (0 : ℝ)) (-t * (0 : ℝ)) _
        exact (hasDerivAt_const _ _).congr_deriv (by ring)
      · change HasDerivAt (fun _ : ℝ => -t * (0 : ℝ)) (-t * (0 : ℝ)) _
        exact (hasDerivAt_const _ _).congr_deriv (by ring)
  · intro t p r hr
    simp only [ofSites, F, H, S, V, G, DGDP]
    refine HasDerivAt.congr_deriv (by hd) ?_
    ring
  · intro t p r hr
    have pos := posr r hr
    refine grad_of_partials (DGDP_diff t p r (pos 0) (pos 1) (pos 2) (pos 3) (pos 4) (pos 5)) fun j => partial_of_update ?_
    fin_cases j
    · exact (DGDP_d0 t p (r 0) (r 1) (pos 0) (pos 1) (pos 2) (pos 3) (pos 4) (pos 5))
    · exact (DGDP_d1 t p (r 0) (r 1) (pos 0) (pos 1) (pos 2) (pos 3) (pos 4) (pos 5))
  · intro t p r hr i
    have pos := posr r hr
    fin_cases i
    · skip
      refine grad_of_partials (D2GDR0DP_diff t p r (pos 0) (pos 1) (pos 2) (pos 3) (pos 4) (pos 5)) fun j => partial_of_update ?_
      fin_cases j
      · exact (D2GDR0DP_d0 t p (r 0) (r 1) (pos 0) (pos 1) (pos 2) (pos 3) (pos 4) (pos 5))
      · exact (D2GDR0DP_d1 t p (r 0) (r 1) (pos 0) (pos 1) (pos 2) (pos 3) (pos 4) (pos 5))
    · skip
      refine grad_of_partials (D2GDR1DP_diff t p r (pos 0) (pos 1) (pos 2) (pos 3) (pos 4) (pos 5)) fun j => partial_of_update ?_
      fin_cases j
      · exact (D2GDR1DP_d0 t p (r 0) (r 1) (pos 0) (pos 1) (pos 2) (pos 3) (pos 4) (pos 5))
      · exact (D2GDR1DP_d1 t p (r 0) (r 1) (pos 0) (pos 1) (pos 2) (pos 3) (pos 4) (pos 5))
  · intro t p r hr
    simp only [ofSites, F, V, DGDP, D2GDTDP]
    refine HasDerivAt.congr_deriv (by hd) ?_
    ring
  · intro t p r hr
    simp only [ofSites, F, V, DGDP, D2GDP2]
    refine HasDerivAt.congr_deriv (by hd) ?_
    ring
  · intro t p r hr
    simp only [ofSites, F, D2GDTDP, D3GDT2DP]
    refine HasDerivAt.congr_deriv (by hd) ?_
    ring
  · intro t p r hr
    simp only [ofSites, F, D2GDTDP, D3GDTDP2]
    refine HasDerivAt.congr_deriv (by hd) ?_
    ring
  · intro t p r hr
    simp only [ofSites, F, D2GDP2, D3GDP3]
    refine HasDerivAt.congr_deriv (by hd) ?_
    ring
  · intro t p r hr i
    fin_cases i
    · change HasDerivAt (fun t => D2GDR0DP t p (r 0) (r 1) (raw r 0) (raw r 1) (raw r 2) (raw r 3) (raw r 4) (raw r 5)) (D3GDR0DTDP t p (r 0) (r 1) (raw r 0) (raw r 1) (raw r 2) (raw r 3) (raw r 4) (raw r 5)) t
      simp only [D2GDR0DP, D3GDR0DTDP]
      refine HasDerivAt.congr_deriv (by hd) ?_
      ring
    · change HasDerivAt (fun t => D2GDR1DP t p (r 0) (r 1) (raw r 0) (raw r 1) (raw r 2) (raw r 3) (raw r 4) (raw r 5)) (D3GDR1DTDP t p (r 0) (r 1) (raw r 0) (raw r 1) (raw r 2) (raw r 3) (raw r 4) (raw r 5)) t
      simp only [D2GDR1DP, D3GDR1DTDP]
      refine HasDerivAt.congr_deriv (by hd) ?_
      ring
  · intro t p r hr i
    fin_cases i
    · change HasDerivAt (fun p => D2GDR0DP t p (r 0) (r 1) (raw r 0) (raw r 1) (raw r 2) (raw r 3) (raw r 4) (raw r 5)) (D3GDR0DP2 t p (r 0) (r 1) (raw r 0) (raw r 1) (raw r 2) (raw r 3) (raw r 4) (raw r 5)) p
      simp only [D2GDR0DP, D3GDR0DP2]
      refine HasDerivAt.congr_deriv (by hd) ?_
      ring
    · change HasDerivAt (fun p => D2GDR1DP t p (r 0) (r 1) (raw r 0) (raw r 1) (raw r 2) (raw r 3) (raw r 4) (raw r 5)) (D3GDR1DP2 t p (r 0) (r 1) (raw r 0) (raw r 1) (raw r 2) (raw r 3) (raw r 4) (raw r 5)) p
      simp only [D2GDR1DP, D3GDR1DP2]
      refine HasDerivAt.congr_deriv (by hd) ?_
      ring
  · intro t p r hr i
    fin_cases i
    · change HasDerivAt (fun t => DGDR0 t p (r 0) (r 1) (raw r 0) (raw r 1) (raw r 2) (raw r 3) (raw r 4) (raw r 5)) (-(-(D2GDR0DT t p (r 0) (r 1) (raw r 0) (raw r 1) (raw r 2) (raw r 3) (raw r 4) (raw r 5)))) t
      simp only [DGDR0, D2GDR0DT]
      refine HasDerivAt.congr_deriv (by hd) ?_
      ring
    · change HasDerivAt (fun t => DGDR1 t p (r 0) (r 1) (raw r 0) (raw r 1) (raw r 2) (raw r 3) (raw r 4) (raw r 5)) (-(-(D2GDR1DT t p (r 0) (r 1) (raw r 0) (raw r 1) (raw r 2) (raw r 3) (raw r 4) (raw r 5)))) t
      simp only [DGDR1, D2GDR1DT]
      refine HasDerivAt.congr_deriv (by hd) ?_
      ring
  · intro t p r hr i
    fin_cases i
    · change HasDerivAt (fun p => DGDR0 t p (r 0) (r 1) (raw r 0) (raw r 1) (raw r 2) (raw r 3) (raw r 4) (raw r 5)) (D2GDR0DP t p (r 0) (r 1) (raw r 0) (raw r 1) (raw r 2) (raw r 3) (raw r 4) (raw r 5)) p
      simp only [DGDR0, D2GDR0DP]
      refine HasDerivAt.congr_deriv (by hd) ?_
      ring
    · change HasDerivAt (fun p => DGDR1 t p (r 0) (r 1) (raw r 0) (raw r 1) (raw r 2) (raw r 3) (raw r 4) (raw r 5)) (D2GDR1DP t p (r 0) (r 1) (raw r 0) (raw r 1) (raw r 2) (raw r 3) (raw r 4) (raw r 5)) p
      simp only [DGDR1, D2GDR1DP]
      refine HasDerivAt.congr_deriv (by hd) ?_
      ring
  · intro t p r hr h0 i
    fin_cases i
    · change HasDerivAt (fun t => -(D2GDR0DT t p (r 0) (r 1) (raw r 0) (raw r 1) (raw r 2) (raw r 3) (raw r 4) (raw r 5))) (-t * (D3GDR0DT2 t p (r 0) (r 1) (raw r 0) (raw r 1) (raw r 2) (raw r 3) (raw r 4) (raw r 5)) / t) t
      simp only [D2GDR0DT, D3GDR0DT2]
      refine HasDerivAt.congr_deriv (by hd) ?_
      first | ring | (field_simp; ring)
    · change HasDerivAt (fun t => -(D2GDR1DT t p (r 0) (r 1) (raw r 0) (raw r 1) (raw r 2) (raw r 3) (raw r 4) (raw r 5))) (-t * (D3GDR1DT2 t p (r 0) (r 1) (raw r 0) (raw r 1) (raw r 2) (raw r 3) (raw r 4) (raw r 5)) / t) t
      simp only [D2GDR1DT, D3GDR1DT2]
      refine HasDerivAt.congr_deriv (by hd) ?_
      first | ring | (field_simp; ring)
  · intro t p r hr
    refine grad_of_partials ?_ fun j => partial_of_update ?_
    · simp only [ofSites, F, D2GDP2]; dd
    · fin_cases j
      · change HasDerivAt (fun _ : ℝ => (0 : ℝ)) (0 : ℝ) _
        exact hasDerivAt_const _ _
      · change HasDerivAt (fun _ : ℝ => (0 : ℝ)) (0 : ℝ) _
        exact hasDerivAt_const _ _
  · intro t p r hr i j; fin_cases i <;> fin_cases j <;> rfl
  · intro t p r hr i j k; fin_cases i <;> fin_cases j <;> fin_cases k <;> exact ⟨rfl, rfl⟩
  · intro r hr; rfl

theorem raw_continuous (k : Fin 6) : Continuous fun r => raw r k := by
  fin_cases k
  · change Continuous fun r : Fin 2 → ℝ => r 0 * (1 - r 1)
    fun_prop
  · change Continuous fun r : Fin 2 → ℝ => (1 - r 0) * (1 - r 1)
    fun_prop
  · change Continuous fun r : Fin 2 → ℝ => r 1
    fun_prop
  · change Continuous fun r : Fin 2 → ℝ => 2 * r 0 * r 1 / 3
    fun_prop
  · change Continuous fun r : Fin 2 → ℝ => 2 * (1 - r 0) * r 1 / 3
    fun_prop
  · change Continuous fun r : Fin 2 → ℝ => 1 - 2 * r 1 / 3
    fun_prop

theorem consistent : mix.Consistent (Interior raw) := consistent_clamp F raw raw_continuous consistent_raw

/-- The dependent end member of leucite.c. -/
def dep : Fin 3 := 2

end Leucite

/-- **C24.** Leucite (leucite.c): derivatives, entropy, enthalpy, heat capacity and volume of mixing fit together. -/
theorem C24_leucite : Leucite.mix.Consistent (Interior Leucite.raw) := Leucite.consistent

/-- The interior contains the composition 1 / 2, 1 / 2. -/
example : Interior Leucite.raw ![1 / 2, 1 / 2] := by
  intro k
  fin_cases k
  · change ((1 / 2) * (1 - (1 / 2)) : ℝ) > eps; unfold eps; norm_num
  · change ((1 - (1 / 2)) * (1 - (1 / 2)) : ℝ) > eps; unfold eps; norm_num
  · change ((1 / 2) : ℝ) > eps; unfold eps; norm_num
  · change (2 * (1 / 2) * (1 / 2) / 3 : ℝ) > eps; unfold eps; norm_num
  · change (2 * (1 - (1 / 2)) * (1 / 2) / 3 : ℝ) > eps; unfold eps; norm_num
  · change (1 - 2 * (1 / 2) / 3 : ℝ) > eps; unfold eps; norm_num

/-- **C24.** The chemical potentials `act*` returns are the derivatives of the total Gibbs energy of mixing. -/
theorem C24_leucite_potentials (t p : ℝ) (m : Fin 3 → ℝ) (h0 : ∑ i, m i ≠ 0)
    (hr : Interior Leucite.raw (toR Leucite.dep m)) (i : Fin 3) :
    Partial (fun m => (∑ i, m i) * Leucite.mix.g t p (toR Leucite.dep m)) m i
      (mu Leucite.mix Leucite.dep t p (toR Leucite.dep m) i) :=
  C24_potential_is_derivative _ _ Leucite.consistent _ t p m h0 hr i

/-- **C24.** The derivatives of the activities `act*` returns are their derivatives. -/
theorem C24_leucite_activities (t p : ℝ) (r : Fin 2 → ℝ) (hr : Interior Leucite.raw r) (i : Fin 3)
    (k : Fin 2) : Partial (fun r => act Leucite.mix Leucite.dep t p r i) r k (dact Leucite.mix Leucite.dep t p r i k) :=
  C24_activity_derivative _ _ Leucite.consistent (isOpen_interior _ Leucite.raw_continuous) _ t p r hr i k

namespace Hornblende

/-- `WFEMG`, hornblende.c 67. -/
def WFEMG : ℝ := 4 * (42 / 25) * (523 / 125) * 1000

/-- `WFEAL`, hornblende.c 68. -/
def WFEAL : ℝ := (839 / 50) * 1000

/-- `DGR`, hornblende.c 69. -/
def DGR : ℝ := 0

/-- `G0`, hornblende.c 73. -/
def G0 : ℝ := 0

/-- `GX`, hornblende.c 74. -/
def GX : ℝ := WFEMG

/-- `GY`, hornblende.c 75. -/
def GY : ℝ := WFEAL

/-- `GXX`, hornblende.c 76. -/
def GXX : ℝ := -WFEMG

/-- `GYY`, hornblende.c 77. -/
def GYY : ℝ := -WFEAL

/-- `GXY`, hornblende.c 78. -/
def GXY : ℝ := DGR

/-- `S`, hornblende.c 96-97. -/
def S (t p r0 r1 xMgM12 xFe2M12 xAlM3 xFe3M3 : ℝ) : ℝ :=
  (-R) * (4 * xMgM12 * Real.log xMgM12 + 4 * xFe2M12 * Real.log xFe2M12 + xFe3M3 * Real.log xFe3M3 + xAlM3 *
    Real.log xAlM3)

/-- `H`, hornblende.c 98-99. -/
def H (t p r0 r1 xMgM12 xFe2M12 xAlM3 xFe3M3 : ℝ) : ℝ :=
  G0 + GX * r0 + GY * r1 + GXX * r0 * r0 + GYY * r1 * r1 + GXY * r0 * r1

/-- `V`, hornblende.c 100. -/
def V (t p r0 r1 xMgM12 xFe2M12 xAlM3 xFe3M3 : ℝ) : ℝ :=
  0

/-- `G`, hornblende.c 101. -/
def G (t p r0 r1 xMgM12 xFe2M12 xAlM3 xFe3M3 : ℝ) : ℝ :=
  (H t p r0 r1 xMgM12 xFe2M12 xAlM3 xFe3M3) - t * (S t p r0 r1 xMgM12 xFe2M12 xAlM3 xFe3M3) + (p - 1) * (V t p
    r0 r1 xMgM12 xFe2M12 xAlM3 xFe3M3)

/-- `DGDR0`, hornblende.c 103-104. -/
def DGDR0 (t p r0 r1 xMgM12 xFe2M12 xAlM3 xFe3M3 : ℝ) : ℝ :=
  R * t * (4 * Real.log xFe2M12 - 4 * Real.log xMgM12) + GX + 2 * GXX * r0 + GXY * r1

/-- `DGDR1`, hornblende.c 105-106. -/
def DGDR1 (t p r0 r1 xMgM12 xFe2M12 xAlM3 xFe3M3 : ℝ) : ℝ :=
  R * t * (Real.log xFe3M3 - Real.log xAlM3) + GY + 2 * GYY * r1 + GXY * r0

/-- `DGDP`, hornblende.c 108. -/
def DGDP (t p r0 r1 xMgM12 xFe2M12 xAlM3 xFe3M3 : ℝ) : ℝ :=
  (V t p r0 r1 xMgM12 xFe2M12 xAlM3 xFe3M3)

/-- `D2GDR0R0`, hornblende.c 110. -/
def D2GDR0R0 (t p r0 r1 xMgM12 xFe2M12 xAlM3 xFe3M3 : ℝ) : ℝ :=
  R * t * (4 / xFe2M12 + 4 / xMgM12) + 2 * GXX

/-- `D2GDR0R1`, hornblende.c 111. -/
def D2GDR0R1 (t p r0 r1 xMgM12 xFe2M12 xAlM3 xFe3M3 : ℝ) : ℝ :=
  GXY

/-- `D2GDR1R1`, hornblende.c 112. -/
def D2GDR1R1 (t p r0 r1 xMgM12 xFe2M12 xAlM3 xFe3M3 : ℝ) : ℝ :=
  R * t * (1 / xFe3M3 + 1 / xAlM3) + 2 * GYY

/-- `D2GDR0DT`, hornblende.c 113. -/
def D2GDR0DT (t p r0 r1 xMgM12 xFe2M12 xAlM3 xFe3M3 : ℝ) : ℝ :=
  R * (4 * Real.log xFe2M12 - 4 * Real.log xMgM12)

/-- `D2GDR1DT`, hornblende.c 114. -/
def D2GDR1DT (t p r0 r1 xMgM12 xFe2M12 xAlM3 xFe3M3 : ℝ) : ℝ :=
  R * (Real.log xFe3M3 - Real.log xAlM3)

/-- `D2GDR0DP`, hornblende.c 115. -/
def D2GDR0DP (t p r0 r1 xMgM12 xFe2M12 xAlM3 xFe3M3 : ℝ) : ℝ :=
  0

/-- `D2GDR1DP`, hornblende.c 116. -/
def D2GDR1DP (t p r0 r1 xMgM12 xFe2M12 xAlM3 xFe3M3 : ℝ) : ℝ :=
  0

/-- `D2GDT2`, hornblende.c 117. -/
def D2GDT2 (t p r0 r1 xMgM12 xFe2M12 xAlM3 xFe3M3 : ℝ) : ℝ :=
  0

/-- `D2GDTDP`, hornblende.c 118. -/
def D2GDTDP (t p r0 r1 xMgM12 xFe2M12 xAlM3 xFe3M3 : ℝ) : ℝ :=
  0

/-- `D2GDP2`, hornblende.c 119. -/
def D2GDP2 (t p r0 r1 xMgM12 xFe2M12 xAlM3 xFe3M3 : ℝ) : ℝ :=
  0

/-- `D3GDR0R0R0`, hornblende.c 121. -/
def D3GDR0R0R0 (t p r0 r1 xMgM12 xFe2M12 xAlM3 xFe3M3 : ℝ) : ℝ :=
  R * t * ((-4) / (xFe2M12 * xFe2M12) + 4 / (xMgM12 * xMgM12))

/-- `D3GDR0R0R1`, hornblende.c 122. -/
def D3GDR0R0R1 (t p r0 r1 xMgM12 xFe2M12 xAlM3 xFe3M3 : ℝ) : ℝ :=
  0

/-- `D3GDR0R0DT`, hornblende.c 123. -/
def D3GDR0R0DT (t p r0 r1 xMgM12 xFe2M12 xAlM3 xFe3M3 : ℝ) : ℝ :=
  R * (4 / xFe2M12 + 4 / xMgM12)

/-- `D3GDR0R0DP`, hornblende.c 124. -/
def D3GDR0R0DP (t p r0 r1 xMgM12 xFe2M12 xAlM3 xFe3M3 : ℝ) : ℝ :=
  0

/-- `D3GDR0R1R1`, hornblende.c 125. -/
def D3GDR0R1R1 (t p r0 r1 xMgM12 xFe2M12 xAlM3 xFe3M3 : ℝ) : ℝ :=
  0

/-- `D3GDR0R1DT`, hornblende.c 126. -/
def D3GDR0R1DT (t p r0 r1 xMgM12 xFe2M12 xAlM3 xFe3M3 : ℝ) : ℝ :=
  0

/-- `D3GDR0R1DP`, hornblende.c 127. -/
def D3GDR0R1DP (t p r0 r1 xMgM12 xFe2M12 xAlM3 xFe3M3 : ℝ) : ℝ :=
  0

/-- `D3GDR1R1R1`, hornblende.c 128. -/
def D3GDR1R1R1 (t p r0 r1 xMgM12 xFe2M12 xAlM3 xFe3M3 : ℝ) : ℝ :=
  R * t * ((-1) / (xFe3M3 * xFe3M3) + 1 / (xAlM3 * xAlM3))

/-- `D3GDR1R1DT`, hornblende.c 129. -/
def D3GDR1R1DT (t p r0 r1 xMgM12 xFe2M12 xAlM3 xFe3M3 : ℝ) : ℝ :=
  R * (1 / xFe3M3 + 1 / xAlM3)

/-- `D3GDR1R1DP`, hornblende.c 130. -/
def D3GDR1R1DP (t p r0 r1 xMgM12 xFe2M12 xAlM3 xFe3M3 : ℝ) : ℝ :=
  0

/-- `D3GDT3`, hornblende.c 131. -/
def D3GDT3 (t p r0 r1 xMgM12 xFe2M12 xAlM3 xFe3M3 : ℝ) : ℝ :=
  0

/-- `D3GDT2DP`, hornblende.c 132. -/
def D3GDT2DP (t p r0 r1 xMgM12 xFe2M12 xAlM3 xFe3M3 : ℝ) : ℝ :=
  0

/-- `D3GDTDP2`, hornblende.c 133. -/
def D3GDTDP2 (t p r0 r1 xMgM12 xFe2M12 xAlM3 xFe3M3 : ℝ) : ℝ :=
  0

/-- `D3GDP3`, hornblende.c 134. -/
def D3GDP3 (t p r0 r1 xMgM12 xFe2M12 xAlM3 xFe3M3 : ℝ) : ℝ :=
  0

/-- `D3GDR0DT2`, hornblende.c 136. -/
def D3GDR0DT2 (t p r0 r1 xMgM12 xFe2M12 xAlM3 xFe3M3 : ℝ) : ℝ :=
  0

/-- `D3GDR1DT2`, hornblende.c 137. -/
def D3GDR1DT2 (t p r0 r1 xMgM12 xFe2M12 xAlM3 xFe3M3 : ℝ) : ℝ :=
  0

/-- `D3GDR0DTDP`, hornblende.c 138. -/
def D3GDR0DTDP (t p r0 r1 xMgM12 xFe2M12 xAlM3 xFe3M3 : ℝ) : ℝ :=
  0

/-- `D3GDR1DTDP`, hornblende.c 139. -/
def D3GDR1DTDP (t p r0 r1 xMgM12 xFe2M12 xAlM3 xFe3M3 : ℝ) : ℝ :=
  0

/-- `D3GDR0DP2`, hornblende.c 140. -/
def D3GDR0DP2 (t p r0 r1 xMgM12 xFe2M12 xAlM3 xFe3M3 : ℝ) : ℝ :=
  0

/-- `D3GDR1DP2`, hornblende.c 141. -/
def D3GDR1DP2 (t p r0 r1 xMgM12 xFe2M12 xAlM3 xFe3M3 : ℝ) : ℝ :=
  0

/-- The macros as the functions of hornblende.c use them: `gmix`, `hmix`, `smix`, `cpmix`, `vmix` and `act`. -/
def F (x : Fin 4 → ℝ) : Mix 2 where
  g t p r := G t p (r 0) (r 1) (x 0) (x 1) (x 2) (x 3)
  gr t p r := ![DGDR0 t p (r 0) (r 1) (x 0) (x 1) (x 2) (x 3), DGDR1 t p (r 0) (r 1) (x 0) (x 1) (x 2) (x 3)]
  grr t p r := ![![D2GDR0R0 t p (r 0) (r 1) (x 0) (x 1) (x 2) (x 3), D2GDR0R1 t p (r 0) (r 1) (x 0) (x 1) (x 2) (x 3)], ![D2GDR0R1 t p (r 0) (r 1) (x 0) (x 1) (x 2) (x 3), D2GDR1R1 t p (r 0) (r 1) (x 0) (x 1) (x 2) (x 3)]]
  grrr t p r := ![![![D3GDR0R0R0 t p (r 0) (r 1) (x 0) (x 1) (x 2) (x 3), D3GDR0R0R1 t p (r 0) (r 1) (x 0) (x 1) (x 2) (x 3)], ![D3GDR0R0R1 t p (r 0) (r 1) (x 0) (x 1) (x 2) (x 3), D3GDR0R1R1 t p (r 0) (r 1) (x 0) (x 1) (x 2) (x 3)]], ![![D3GDR0R0R1 t p (r 0) (r 1) (x 0) (x 1) (x 2) (x 3), D3GDR0R1R1 t p (r 0) (r 1) (x 0) (x 1) (x 2) (x 3)], ![D3GDR0R1R1 t p (r 0) (r 1) (x 0) (x 1) (x 2) (x 3), D3GDR1R1R1 t p (r 0) (r 1) (x 0) (x 1) (x 2) (x 3)]]]
  h t p r := (G t p (r 0) (r 1) (x 0) (x 1) (x 2) (x 3)) + t * (S t p (r 0) (r 1) (x 0) (x 1) (x 2) (x 3))
  s t p r := S t p (r 0) (r 1) (x 0) (x 1) (x 2) (x 3)
  sr t p r := ![-(D2GDR0DT t p (r 0) (r 1) (x 0) (x 1) (x 2) (x 3)), -(D2GDR1DT t p (r 0) (r 1) (x 0) (x 1) (x 2) (x 3))]
  srr t p r := ![![-(D3GDR0R0DT t p (r 0) (r 1) (x 0) (x 1) (x 2) (x 3)), -(D3GDR0R1DT t p (r 0) (r 1) (x 0) (x 1) (x 2) (x 3))], ![-(D3GDR0R1DT t p (r 0) (r 1) (x 0) (x 1) (x 2) (x 3)), -(D3GDR1R1DT t p (r 0) (r 1) (x 0) (x 1) (x 2) (x 3))]]
  cp t p r := -t * (D2GDT2 t p (r 0) (r 1) (x 0) (x 1) (x 2) (x 3))
  cpt t p r := -t * (D3GDT3 t p (r 0) (r 1) (x 0) (x 1) (x 2) (x 3)) - D2GDT2 t p (r 0) (r 1) (x 0) (x 1) (x 2) (x 3)
  cpr t p r := ![-t * (D3GDR0DT2 t p (r 0) (r 1) (x 0) (x 1) (x 2) (x 3)), -t * (D3GDR1DT2 t p (r 0) (r 1) (x 0) (x 1) (x 2) (x 3))]
  v t p r := DGDP t p (r 0) (r 1) (x 0) (x 1) (x 2) (x 3)
  vr t p r := ![D2GDR0DP t p (r 0) (r 1) (x 0) (x 1) (x 2) (x 3), D2GDR1DP t p (r 0) (r 1) (x 0) (x 1) (x 2) (x 3)]
  vrr t p r := ![![D3GDR0R0DP t p (r 0) (r 1) (x 0) (x 1) (x 2) (x 3), D3GDR0R1DP t p (r 0) (r 1) (x 0) (x 1) (x 2) (x 3)], ![D3GDR0R1DP t p (r 0) (r 1) (x 0) (x 1) (x 2) (x 3), D3GDR1R1DP t p (r 0) (r 1) (x 0) (x 1) (x 2) (x 3)]]
  vt t p r := D2GDTDP t p (r 0) (r 1) (x 0) (x 1) (x 2) (x 3)
  vp t p r := D2GDP2 t p (r 0) (r 1) (x 0) (x 1) (x 2) (x 3)
  vtt t p r := D3GDT2DP t p (r 0) (r 1) (x 0) (x 1) (x 2) (x 3)
  vtp t p r := D3GDTDP2 t p (r 0) (r 1) (x 0) (x 1) (x 2) (x 3)
  vpp t p r := D3GDP3 t p (r 0) (r 1) (x 0) (x 1) (x 2) (x 3)
  vrt t p r := ![D3GDR0DTDP t p (r 0) (r 1) (x 0) (x 1) (x 2) (x 3), D3GDR1DTDP t p (r 0) (r 1) (x 0) (x 1) (x 2) (x 3)]
  vrp t p r := ![D3GDR0DP2 t p (r 0) (r 1) (x 0) (x 1) (x 2) (x 3), D3GDR1DP2 t p (r 0) (r 1) (x 0) (x 1) (x 2) (x 3)]
  fx r := r

/-- Site fractions before clamping, lines 423 424 425 426 515 516 517 518 565 566 567 568 581 582 583 584 of hornblende.c. -/
def raw (r : Fin 2 → ℝ) : Fin 4 → ℝ := ![1 - r 0, r 0, 1 - r 1, r 1]

/-- The phase as coded in hornblende.c. -/
def mix : Mix 2 := ofSites F raw

theorem G_d0 (t p r0 r1 : ℝ) (h0 : 0 < 1 - r0) (h1 : 0 < r0) (h2 : 0 < 1 - r1) (h3 : 0 < r1) :
    HasDerivAt (fun r0 => G t p r0 r1 (1 - r0) r0 (1 - r1) r1) (DGDR0 t p r0 r1 (1 - r0) r0 (1 - r1) r1) r0 := by
  have n0 := h0.ne'
  have n1 := h1.ne'
  have n2 := h2.ne'
  have n3 := h3.ne'
  simp only [H, S, V, G, DGDR0]
  refine HasDerivAt.congr_deriv (by hd) ?_
  all_goals first | ring1 | (field_simp; done) | (field_simp; ring1)

theorem G_d1 (t p r0 r1 : ℝ) (h0 : 0 < 1 - r0) (h1 : 0 < r0) (h2 : 0 < 1 - r1) (h3 : 0 < r1) :
    HasDerivAt (fun r1 => G t p r0 r1 (1 - r0) r0 (1 - r1) r1) (DGDR1 t p r0 r1 (1 - r0) r0 (1 - r1) r1) r1 := by
  have n0 := h0.ne'
  have n1 := h1.ne'
  have n2 := h2.ne'
  have n3 := h3.ne'
  simp only [H, S, V, G, DGDR1]
  refine HasDerivAt.congr_deriv (by hd) ?_
  all_goals first | ring1 | (field_simp; done) | (field_simp; ring1)

theorem G_diff (t p : ℝ) (r : Fin 2 → ℝ) (h0 : 0 < 1 - r 0) (h1 : 0 < r 0) (h2 : 0 < 1 - r 1) (h3 : 0 < r 1) :
    DifferentiableAt ℝ (fun r : Fin 2 → ℝ => G t p (r 0) (r 1) (1 - r 0) (r 0) (1 - r 1) (r 1)) r := by
  have n0 := h0.ne'
  have n1 := h1.ne'
  have n2 := h2.ne'
  have n3 := h3.ne'
  simp only [H, S, V, G]
  dd

theorem DGDR0_d0 (t p r0 r1 : ℝ) (h0 : 0 < 1 - r0) (h1 : 0 < r0) (h2 : 0 < 1 - r1) (h3 : 0 < r1) :
    HasDerivAt (fun r0 => DGDR0 t p r0 r1 (1 - r0) r0 (1 - r1) r1) (D2GDR0R0 t p r0 r1 (1 - r0) r0 (1 - r1) r1) r0 := by
  have n0 := h0.ne'
  have n1 := h1.ne'
  have n2 := h2.ne'
  have n3 := h3.ne'
  simp only [DGDR0, D2GDR0R0]
  refine HasDerivAt.congr_deriv (by hd) ?_
  all_goals first | ring1 | (field_simp; done) | (field_simp; ring1)

theorem DGDR0_d1 (t p r0 r1 : ℝ) (h0 : 0 < 1 - r0) (h1 : 0 < r0) (h2 : 0 < 1 - r1) (h3 : 0 < r1) :
    HasDerivAt (fun r1 => DGDR0 t p r0 r1 (1 - r0) r0 (1 - r1) r1) (D2GDR0R1 t p r0 r1 (1 - r0) r0 (1 - r1) r1) r1 := by
  have n0 := h0.ne'
  have n1 := h1.ne'
  have n2 := h2.ne'
  have n3 := h3.ne'
  simp only [DGDR0, D2GDR0R1]
  refine HasDerivAt.congr_deriv (by hd) ?_
  all_goals first | ring1 | (field_simp; done) | (field_simp; ring1)

theorem DGDR0_diff (t p : ℝ) (r : Fin 2 → ℝ) (h0 : 0 < 1 - r 0) (h1 : 0 < r 0) (h2 : 0 < 1 - r 1) (h3 : 0 < r 1) :
    DifferentiableAt ℝ (fun r : Fin 2 → ℝ => DGDR0 t p (r 0) (r 1) (1 - r 0) (r 0) (1 - r 1) (r 1)) r := by
  have n0 := h0.ne'
  have n1 := h1.ne'
  have n2 := h2.ne'
  have n3 := h3.ne'
  simp only [DGDR0]
  dd

theorem DGDR1_d0 (t p r0 r1 : ℝ) (h0 : 0 < 1 - r0) (h1 : 0 < r0) (h2 : 0 < 1 - r1) (h3 : 0 < r1) :
    HasDerivAt (fun r0 => DGDR1 t p r0 r1 (1 - r0) r0 (1 - r1) r1) (D2GDR0R1 t p r0 r1 (1 - r0) r0 (1 - r1) r1) r0 := by
  have n0 := h0.ne'
  have n1 := h1.ne'
  have n2 := h2.ne'
  have n3 := h3.ne'
  simp only [DGDR1, D2GDR0R1]
  refine HasDerivAt.congr_deriv (by hd) ?_
  all_goals first | ring1 | (field_simp; done) | (field_simp; ring1)

theorem DGDR1_d1 (t p r0 r1 : ℝ) (h0 : 0 < 1 - r0) (h1 : 0 < r0) (h2 : 0 < 1 - r1) (h3 : 0 < r1) :
    HasDerivAt (fun r1 => DGDR1 t p r0 r1 (1 - r0) r0 (1 - r1) r1) (D2GDR1R1 t p r0 r1 (1 - r0) r0 (1 - r1) r1) r1 := by
  have n0 := h0.ne'
  have n1 := h1.ne'
  have n2 := h2.ne'
  have n3 := h3.ne'
  simp only [DGDR1, D2GDR1R1]
  refine HasDerivAt.congr_deriv (by hd) ?_
  all_goals first | ring1 | (field_simp; done) | (field_simp; ring1)

theorem DGDR1_diff (t p : ℝ) (r : Fin 2 → ℝ) (h0 : 0 < 1 - r 0) (h1 : 0 < r 0) (h2 : 0 < 1 - r 1) (h3 : 0 < r 1) :
    DifferentiableAt ℝ (fun r : Fin 2 → ℝ => DGDR1 t p (r 0) (r 1) (1 - r 0) (r 0) (1 - r 1) (r 1)) r := by
  have n0 := h0.ne'
  have n1 := h1.ne'
  have n2 := h2.ne'
  have n3 := h3.ne'
  simp only [DGDR1]
  dd

theorem D2GDR0R0_d0 (t p r0 r1 : ℝ) (h0 : 0 < 1 - r0) (h1 : 0 < r0) (h2 : 0 < 1 - r1) (h3 : 0 < r1) :
    HasDerivAt (fun r0 => D2GDR0R0 t p r0 r1 (1 - r0) r0 (1 - r1) r1) (D3GDR0R0R0 t p r0 r1 (1 - r0) r0 (1 - r1) r1) r0 := by
  have n0 := h0.ne'
  have n1 := h1.ne'
  have n2 := h2.ne'
  have n3 := h3.ne'
  simp only [D2GDR0R0, D3GDR0R0R0]
  refine HasDerivAt.congr_deriv (by hd) ?_
  all_goals first | ring1 | (field_simp; done) | (field_simp; ring1)

theorem D2GDR0R0_d1 (t p r0 r1 : ℝ) (h0 : 0 < 1 - r0) (h1 : 0 < r0) (h2 : 0 < 1 - r1) (h3 : 0 < r1) :
    HasDerivAt (fun r1 => D2GDR0R0 t p r0 r1 (1 - r0) r0 (1 - r1) r1) (D3GDR0R0R1 t p r0 r1 (1 - r0) r0 (1 - r1) r1) r1 := by
  have n0 := h0.ne'
  have n1 := h1.ne'
  have n2 := h2.ne'
  have n3 := h3.ne'
  simp only [D2GDR0R0, D3GDR0R0R1]
  refine HasDerivAt.congr_deriv (by hd) ?_
  all_goals first | ring1 | (field_simp; done) | (field_simp; ring1)

theorem D2GDR0R0_diff (t p : ℝ) (r : Fin 2 → ℝ) (h0 : 0 < 1 - r 0) (h1 : 0 < r 0) (h2 : 0 < 1 - r 1) (h3 : 0 < r 1) :
    DifferentiableAt ℝ (fun r : Fin 2 → ℝ => D2GDR0R0 t p (r 0) (r 1) (1 - r 0) (r 0) (1 - r 1) (r 1)) r := by
  have n0 := h0.ne'
  have n1 := h1.ne'
  have n2 := h2.ne'
  have n3 := h3.ne'
  simp only [D2GDR0R0]
  dd

theorem D2GDR0R1_d0 (t p r0 r1 : ℝ) (h0 : 0 < 1 - r0) (h1 : 0 < r0) (h2 : 0 < 1 - r1) (h3 : 0 < r1) :
    HasDerivAt (fun r0 => D2GDR0R1 t p r0 r1 (1 - r0) r0 (1 - r1) r1) (D3GDR0R0R1 t p r0 r1 (1 - r0) r0 (1 - r1) r1) r0 := by
  have n0 := h0.ne'
  have n1 := h1.ne'
  have n2 := h2.ne'
  have n3 := h3.ne'
  simp only [D2GDR0R1, D3GDR0R0R1]
  refine HasDerivAt.congr_deriv (by hd) ?_
  all_goals first | ring1 | (field_simp; done) | (field_simp; ring1)

theorem D2GDR0R1_d1 (t p r0 r1 : ℝ) (h0 : 0 < 1 - r0) (h1 : 0 < r0) (h2 : 0 < 1 - r1) (h3 : 0 < r1) :
    HasDerivAt (fun r1 => D2GDR0R1 t p r0 r1 (1 - r0) r0 (1 - r1) r1) (D3GDR0R1R1 t p r0 r1 (1 - r0) r0 (1 - r1) r1) r1 := by
  have n0 := h0.ne'
  have n1 := h1.ne'
  have n2 := h2.ne'
  have n3 := h3.ne'
  simp only [D2GDR0R1, D3GDR0R1R1]
  refine HasDerivAt.congr_deriv (by hd) ?_
  all_goals first | ring1 | (field_simp; done) | (field_simp; ring1)

theorem D2GDR0R1_diff (t p : ℝ) (r : Fin 2 → ℝ) (h0 : 0 < 1 - r 0) (h1 : 0 < r 0) (h2 : 0 < 1 - r 1) (h3 : 0 < r 1) :
    DifferentiableAt ℝ (fun r : Fin 2 → ℝ => D2GDR0R1 t p (r 0) (r 1) (1 - r 0) (r 0) (1 - r 1) (r 1)) r := by
  have n0 := h0.ne'
  have n1 := h1.ne'
  have n2 := h2.ne'
  have n3 := h3.ne'
  simp only [D2GDR0R1]
  dd

theorem D2GDR1R1_d0 (t p r0 r1 : ℝ) (h0 : 0 < 1 - r0) (h1 : 0 < r0) (h2 : 0 < 1 - r1) (h3 : 0 < r1) :
    HasDerivAt (fun r0 => D2GDR1R1 t p r0 r1 (1 - r0) r0 (1 - r1) r1) (D3GDR0R1R1 t p r0 r1 (1 - r0) r0 (1 - r1) r1) r0 := by
  have n0 := h0.ne'
  have n1 := h1.ne'
  have n2 := h2.ne'
  have n3 := h3.ne'
  simp only [D2GDR1R1, D3GDR0R1R1]
  refine HasDerivAt.congr_deriv (by hd) ?_
  all_goals first | ring1 | (field_simp; done) | (field_simp; ring1)

theorem D2GDR1R1_d1 (t p r0 r1 : ℝ) (h0 : 0 < 1 - r0) (h1 : 0 < r0) (h2 : 0 < 1 - r1) (h3 : 0 < r1) :
    HasDerivAt (fun r1 => D2GDR1R1 t p r0 r1 (1 - r0) r0 (1 - r1) r1) (D3GDR1R1R1 t p r0 r1 (1 - r0) r0 (1 - r1) r1) r1 := by
  have n0 := h0.ne'
  have n1 := h1.ne'
  have n2 := h2.ne'
  have n3 := h3.ne'
  simp only [D2GDR1R1, D3GDR1R1R1]
  refine HasDerivAt.congr_deriv (by hd) ?_
  all_goals first | ring1 | (field_simp; done) | (field_simp; ring1)

theorem D2GDR1R1_diff (t p : ℝ) (r : Fin 2 → ℝ) (h0 : 0 < 1 - r 0) (h1 : 0 < r 0) (h2 : 0 < 1 - r 1) (h3 : 0 < r 1) :
    DifferentiableAt ℝ (fun r : Fin 2 → ℝ => D2GDR1R1 t p (r 0) (r 1) (1 - r 0) (r 0) (1 - r 1) (r 1)) r := by
  have n0 := h0.ne'
  have n1 := h1.ne'
  have n2 := h2.ne'
  have n3 := h3.ne'
  simp only [D2GDR1R1]
  dd

theorem S_d0 (t p r0 r1 : ℝ) (h0 : 0 < 1 - r0) (h1 : 0 < r0) (h2 : 0 < 1 - r1) (h3 : 0 < r1) :
    HasDerivAt (fun r0 => S t p r0 r1 (1 - r0) r0 (1 - r1) r1) (-(D2GDR0DT t p r0 r1 (1 - r0) r0 (1 - r1) r1)) r0 := by
  have n0 := h0.ne'
  have n1 := h1.ne'
  have n2 := h2.ne'
  have n3 := h3.ne'
  simp only [S, D2GDR0DT]
  refine HasDerivAt.congr_deriv (by hd) ?_
  all_goals first | ring1 | (field_simp; done) | (field_simp; ring1)

theorem S_d1 (t p r0 r1 : ℝ) (h0 : 0 < 1 - r0) (h1 : 0 < r0) (h2 : 0 < 1 - r1) (h3 : 0 < r1) :
    HasDerivAt (fun r1 => S t p r0 r1 (1 - r0) r0 (1 - r1) r1) (-(D2GDR1DT t p r0 r1 (1 - r0) r0 (1 - r1) r1)) r1 := by
  have n0 := h0.ne'
  have n1 := h1.ne'
  have n2 := h2.ne'
  have n3 := h3.ne'
  simp only [S, D2GDR1DT]
  refine HasDerivAt.congr_deriv (by hd) ?_
  all_goals first | ring1 | (field_simp; done) | (field_simp; ring1)

theorem S_diff (t p : ℝ) (r : Fin 2 → ℝ) (h0 : 0 < 1 - r 0) (h1 : 0 < r 0) (h2 : 0 < 1 - r 1) (h3 : 0 < r 1) :
    DifferentiableAt ℝ (fun r : Fin 2 → ℝ => S t p (r 0) (r 1) (1 - r 0) (r 0) (1 - r 1) (r 1)) r := by
  have n0 := h0.ne'
  have n1 := h1.ne'
  have n2 := h2.ne'
  have n3 := h3.ne'
  simp only [S]
  dd

theorem D2GDR0DT_d0 (t p r0 r1 : ℝ) (h0 : 0 < 1 - r0) (h1 : 0 < r0) (h2 : 0 < 1 - r1) (h3 : 0 < r1) :
    HasDerivAt (fun r0 => D2GDR0DT t p r0 r1 (1 - r0) r0 (1 - r1) r1) (D3GDR0R0DT t p r0 r1 (1 - r0) r0 (1 - r1) r1) r0 := by
  have n0 := h0.ne'
  have n1 := h1.ne'
  have n2 := h2.ne'
  have n3 := h3.ne'
  simp only [D2GDR0DT, D3GDR0R0DT]
  refine HasDerivAt.congr_deriv (by hd) ?_
  all_goals first | ring1 | (field_simp; done) | (field_simp; ring1)

theorem D2GDR0DT_d1 (t p r0 r1 : ℝ) (h0 : 0 < 1 - r0) (h1 : 0 < r0) (h2 : 0 < 1 - r1) (h3 : 0 < r1) :
    HasDerivAt (fun r1 => D2GDR0DT t p r0 r1 (1 - r0) r0 (1 - r1) r1) (D3GDR0R1DT t p r0 r1 (1 - r0) r0 (1 - r1) r1) r1 := by
  have n0 := h0.ne'
  have n1 := h1.ne'
  have n2 := h2.ne'
  have n3 := h3.ne'
  simp only [D2GDR0DT, D3GDR0R1DT]
  refine HasDerivAt.congr_deriv (by hd) ?_
  all_goals first | ring1 | (field_simp; done) | (field_simp; ring1)

theorem D2GDR0DT_diff (t p : ℝ) (r : Fin 2 → ℝ) (h0 : 0 < 1 - r 0) (h1 : 0 < r 0) (h2 : 0 < 1 - r 1) (h3 : 0 < r 1) :
    DifferentiableAt ℝ (fun r : Fin 2 → ℝ => D2GDR0DT t p (r 0) (r 1) (1 - r 0) (r 0) (1 - r 1) (r 1)) r := by
  have n0 := h0.ne'
  have n1 := h1.ne'
  have n2 := h2.ne'
  have n3 := h3.ne'
  simp only [D2GDR0DT]
  dd

theorem D2GDR1DT_d0 (t p r0 r1 : ℝ) (h0 : 0 < 1 - r0) (h1 : 0 < r0) (h2 : 0 < 1 - r1) (h3 : 0 < r1) :
    HasDerivAt (fun r0 => D2GDR1DT t p r0 r1 (1 - r0) r0 (1 - r1) r1) (D3GDR0R1DT t p r0 r1 (1 - r0) r0 (1 - r1) r1) r0 := by
  have n0 := h0.ne'
  have n1 := h1.ne'
  have n2 := h2.ne'
  have n3 := h3.ne'
  simp only [D2GDR1DT, D3GDR0R1DT]
  refine HasDerivAt.congr_deriv (by hd) ?_
  all_goals first | ring1 | (field_simp; done) | (field_simp; ring1)

theorem D2GDR1DT_d1 (t p r0 r1 : ℝ) (h0 : 0 < 1 - r0) (h1 : 0 < r0) (h2 : 0 < 1 - r1) (h3 : 0 < r1) :
    HasDerivAt (fun r1 => D2GDR1DT t p r0 r1 (1 - r0) r0 (1 - r1) r1) (D3GDR1R1DT t p r0 r1 (1 - r0) r0 (1 - r1) r1) r1 := by
  have n0 := h0.ne'
  have n1 := h1.ne'
  have n2 := h2.ne'
  have n3 := h3.ne'
  simp only [D2GDR1DT, D3GDR1R1DT]
  refine HasDerivAt.congr_deriv (by hd) ?_
  all_goals first | ring1 | (field_simp; done) | (field_simp; ring1)

theorem D2GDR1DT_diff (t p : ℝ) (r : Fin 2 → ℝ) (h0 : 0 < 1 - r 0) (h1 : 0 < r 0) (h2 : 0 < 1 - r 1) (h3 : 0 < r 1) :
    DifferentiableAt ℝ (fun r : Fin 2 → ℝ => D2GDR1DT t p (r 0) (r 1) (1 - r 0) (r 0) (1 - r 1) (r 1)) r := by
  have n0 := h0.ne'
  have n1 := h1.ne'
  have n2 := h2.ne'
  have n3 := h3.ne'
  simp only [D2GDR1DT]
  dd

theorem DGDP_d0 (t p r0 r1 : ℝ) (h0 : 0 < 1 - r0) (h1 : 0 < r0) (h2 : 0 < 1 - r1) (h3 : 0 < r1) :
    HasDerivAt (fun r0 => DGDP t p r0 r1 (1 - r0) r0 (1 - r1) r1) (D2GDR0DP t p r0 r1 (1 - r0) r0 (1 - r1) r1) r0 := by
  have n0 := h0.ne'
  have n1 := h1.ne'
  have n2 := h2.ne'
  have n3 := h3.ne'
  simp only [V, DGDP, D2GDR0DP]
  refine HasDerivAt.congr_deriv (by hd) ?_
  all_goals first | ring1 | (field_simp; done) | (field_simp; ring1)

theorem DGDP_d1 (t p r0 r1 : ℝ) (h0 : 0 < 1 - r0) (h1 : 0 < r0) (h2 : 0 < 1 - r1) (h3 : 0 < r1) :
    HasDerivAt (fun r1 => DGDP t p r0 r1 (1 - r0) r0 (1 - r1) r1) (D2GDR1DP t p r0 r1 (1 - r0) r0 (1 - r1) r1) r1 := by
  have n0 := h0.ne'
  have n1 := h1.ne'
  have n2 := h2.ne'
  have n3 := h3.ne'
  simp only [V, DGDP, D2GDR1DP]
  refine HasDerivAt.congr_deriv (by hd) ?_
  all_goals first | ring1 | (field_simp; done) | (field_simp; ring1)

theorem DGDP_diff (t p : ℝ) (r : Fin 2 → ℝ) (h0 : 0 < 1 - r 0) (h1 : 0 < r 0) (h2 : 0 < 1 - r 1) (h3 : 0 < r 1) :
    DifferentiableAt ℝ (fun r : Fin 2 → ℝ => DGDP t p (r 0) (r 1) (1 - r 0) (r 0) (1 - r 1) (r 1)) r := by
  have n0 := h0.ne'
  have n1 := h1.ne'
  have n2 := h2.ne'
  have n3 := h3.ne'
  simp only [V, DGDP]
  dd

theorem D2GDR0DP_d0 (t p r0 r1 : ℝ) (h0 : 0 < 1 - r0) (h1 : 0 < r0) (h2 : 0 < 1 - r1) (h3 : 0 < r1) :
    HasDerivAt (fun r0 => D2GDR0DP t p r0 r1 (1 - r0) r0 (1 - r1) r1) (D3GDR0R0DP t p r0 r1 (1 - r0) r0 (1 - r1) r1) r0 := by
  have n0 := h0.ne'
  have n1 := h1.ne'
  have n2 := h2.ne'
  have n3 := h3.ne'
  simp only [D2GDR0DP, D3GDR0R0DP]
  refine HasDerivAt.congr_deriv (by hd) ?_
  all_goals first | ring1 | (field_simp; done) | (field_simp; ring1)

theorem D2GDR0DP_d1 (t p r0 r1 : ℝ) (h0 : 0 < 1 - r0) (h1 : 0 < r0) (h2 : 0 < 1 - r1) (h3 : 0 < r1) :
    HasDerivAt (fun r1 => D2GDR0DP t p r0 r1 (1 - r0) r0 (1 - r1) r1) (D3GDR0R1DP t p r0 r1 (1 - r0) r0 (1 - r1) r1) r1 := by
  have n0 := h0.ne'
  have n1 := h1.ne'
  have n2 := h2.ne'
  have n3 := h3.ne'
  simp only [D2GDR0DP, D3GDR0R1DP]
  refine HasDerivAt.congr_deriv (by hd) ?_
  all_goals first | ring1 | (field_simp; done) | (field_simp; ring1)

theorem D2GDR0DP_diff (t p : ℝ) (r : Fin 2 → ℝ) (h0 : 0 < 1 - r 0) (h1 : 0 < r 0) (h2 : 0 < 1 - r 1) (h3 : 0 < r 1) :
    DifferentiableAt ℝ (fun r : Fin 2 → ℝ => D2GDR0DP t p (r 0) (r 1) (1 - r 0) (r 0) (1 - r 1) (r 1)) r := by
  have n0 := h0.ne'
  have n1 := h1.ne'
  have n2 := h2.ne'
  have n3 := h3.ne'
  simp only [D2GDR0DP]
  dd

theorem D2GDR1DP_d0 (t p r0 r1 : ℝ) (h0 : 0 < 1 - r0) (h1 : 0 < r0) (h2 : 0 < 1 - r1) (h3 : 0 < r1) :
    HasDerivAt (fun r0 => D2GDR1DP t p r0 r1 (1 - r0) r0 (1 - r1) r1) (D3GDR0R1DP t p r0 r1 (1 - r0) r0 (1 - r1) r1) r0 := by
  have n0 := h0.ne'
  have n1 := h1.ne'
  have n2 := h2.ne'
  have n3 := h3.ne'
  simp only [D2GDR1DP, D3GDR0R1DP]
  refine HasDerivAt.congr_deriv (by hd) ?_
  all_goals first | ring1 | (field_simp; done) | (field_simp; ring1)

theorem D2GDR1DP_d1 (t p r0 r1 : ℝ) (h0 : 0 < 1 - r0) (h1 : 0 < r0) (h2 : 0 < 1 - r1) (h3 : 0 < r1) :
    HasDerivAt (fun r1 => D2GDR1DP t p r0 r1 (1 - r0) r0 (1 - r1) r1) (D3GDR1R1DP t p r0 r1 (1 - r0) r0 (1 - r1) r1) r1 := by
  have n0 := h0.ne'
  have n1 := h1.ne'
  have n2 := h2.ne'
  have n3 := h3.ne'
  simp only [D2GDR1DP, D3GDR1R1DP]
  refine HasDerivAt.congr_deriv (by hd) ?_
  all_goals first | ring1 | (field_simp; done) | (field_simp; ring1)

theorem D2GDR1DP_diff (t p : ℝ) (r : Fin 2 → ℝ) (h0 : 0 < 1 - r 0) (h1 : 0 < r 0) (h2 : 0 < 1 - r 1) (h3 : 0 < r 1) :
    DifferentiableAt ℝ (fun r : Fin 2 → ℝ => D2GDR1DP t p (r 0) (r 1) (1 - r 0) (r 0) (1 - r 1) (r 1)) r := by
  have n0 := h0.ne'
  have n1 := h1.ne'
  have n2 := h2.ne'
  have n3 := h3.ne'
  simp only [D2GDR1DP]
  dd

set_option maxHeartbeats 1600000 in
theorem consistent_raw : (ofSites F raw).Consistent (Interior raw) := by
  have posr : ∀ r, Interior raw r → ∀ k, 0 < raw r k := fun r hr k => lt_trans eps_pos (hr k)
  constructor
  · intro t p r hr
    have pos := posr r hr
    refine grad_of_partials (G_diff t p r (pos 0) (pos 1) (pos 2) (pos 3)) fun j => partial_of_update ?_
    fin_cases j
    · exact (G_d0 t p (r 0) (r 1) (pos 0) (pos 1) (pos 2) (pos 3))
    · exact (G_d1 t p (r 0) (r 1) (pos 0) (pos 1) (pos 2) (pos 3))
  · intro t p r hr i
    have pos := posr r hr
    fin_cases i
    · skip
      refine grad_of_partials (DGDR0_diff t p r (pos 0) (pos 1) (pos 2) (pos 3)) fun j => partial_of_update ?_
      fin_cases j
      · exact (DGDR0_d0 t p (r 0) (r 1) (pos 0) (pos 1) (pos 2) (pos 3))
      · exact (DGDR0_d1 t p (r 0) (r 1) (pos 0) (pos 1) (pos 2) (pos 3))
    · skip
      refine grad_of_partials (DGDR1_diff t p r (pos 0) (pos 1) (pos 2) (pos 3)) fun j => partial_of_update ?_
      fin_cases j
      · exact (DGDR1_d0 t p (r 0) (r 1) (pos 0) (pos 1) (pos 2) (pos 3))
      · exact (DGDR1_d1 t p (r 0) (r 1) (pos 0) (pos 1) (pos 2) (pos 3))
  · intro t p r hr i j
    have pos := posr r hr
    fin_cases i <;> fin_cases j
    · skip
      refine grad_of_partials (D2GDR0R0_diff t p r (pos 0) (pos 1) (pos 2) (pos 3)) fun j => partial_of_update ?_
      fin_cases j
      · exact (D2GDR0R0_d0 t p (r 0) (r 1) (pos 0) (pos 1) (pos 2) (pos 3))
      · exact (D2GDR0R0_d1 t p (r 0) (r 1) (pos 0) (pos 1) (pos 2) (pos 3))
    · skip
      refine grad_of_partials (D2GDR0R1_diff t p r (pos 0) (pos 1) (pos 2) (pos 3)) fun j => partial_of_update ?_
      fin_cases j
      · exact (D2GDR0R1_d0 t p (r 0) (r 1) (pos 0) (pos 1) (pos 2) (pos 3))
      · exact (D2GDR0R1_d1 t p (r 0) (r 1) (pos 0) (pos 1) (pos 2) (pos 3))
    · skip
      refine grad_of_partials (D2GDR0R1_diff t p r (pos 0) (pos 1) (pos 2) (pos 3)) fun j => partial_of_update ?_
      fin_cases j
      · exact (D2GDR0R1_d0 t p (r 0) (r 1) (pos 0) (pos 1) (pos 2) (pos 3))
      · exact (D2GDR0R1_d1 t p (r 0) (r 1) (pos 0) (pos 1) (pos 2) (pos 3))
    · skip
      refine grad_of_partials (D2GDR1R1_diff t p r (pos 0) (pos 1) (pos 2) (pos 3)) fun j => partial_of_update ?_
      fin_cases j
      · exact (D2GDR1R1_d0 t p (r 0) (r 1) (pos 0) (pos 1) (pos 2) (pos 3))
      · exact (D2GDR1R1_d1 t p (r 0) (r 1) (pos 0) (pos 1) (pos 2) (pos 3))
  · intro t p r hr
    simp only [ofSites, F, H, S, V, G]
    refine HasDerivAt.congr_deriv (by hd) ?_
    ring
  · intro t p r hr; rfl
  · intro t p r hr
    have pos := posr r hr
    refine grad_of_partials (S_diff t p r (pos 0) (pos 1) (pos 2) (pos 3)) fun j => partial_of_update ?_
    fin_cases j
    · exact S_d0 t p (r 0) (r 1) (pos 0) (pos 1) (pos 2) (pos 3)
    · exact S_d1 t p (r 0) (r 1) (pos 0) (pos 1) (pos 2) (pos 3)
  · intro t p r hr i
    have pos := posr r hr
    fin_cases i
    · skip
      refine grad_of_partials ((D2GDR0DT_diff t p r (pos 0) (pos 1) (pos 2) (pos 3)).fun_neg) fun j => partial_of_update ?_
      fin_cases j
      · exact ((D2GDR0DT_d0 t p (r 0) (r 1) (pos 0) (pos 1) (pos 2) (pos 3))).fun_neg
      · exact ((D2GDR0DT_d1 t p (r 0) (r 1) (pos 0) (pos 1) (pos 2) (pos 3))).fun_neg
    · skip
      refine grad_of_partials ((D2GDR1DT_diff t p r (pos 0) (pos 1) (pos 2) (pos 3)).fun_neg) fun j => partial_of_update ?_
      fin_cases j
      · exact ((D2GDR1DT_d0 t p (r 0) (r 1) (pos 0) (pos 1) (pos 2) (pos 3))).fun_neg
      · exact ((D2GDR1DT_d1 t p (r 0) (r 1) (pos 0) (pos 1) (pos 2) (pos 3))).fun_neg
  · intro t p r hr
    simp only [ofSites, F, H, S, V, G, D2GDT2]
    refine HasDerivAt.congr_deriv (by hd) ?_
    ring
  · intro t p r hr
    simp only [ofSites, F, D2GDT2, D3GDT3]
    refine HasDerivAt.congr_deriv (by hd) ?_
    ring
  · intro t p r hr
    refine grad_of_partials ?_ fun j => partial_of_update ?_
    · simp only [ofSites, F, D2GDT2]; dd
    · fin_cases j
      · change HasDerivAt (fun _ : ℝ => -t * (0 : ℝ)) (-t * (0 : ℝ)) _
        exact (hasDerivAt_const _ _).congr_deriv (by ring)
      · change HasDerivAt (fun _ : ℝ => -t * (0 : ℝ)) (-t * (0 : ℝ)) _
        exact (hasDerivAt_const _ _).congr_deriv (by ring)
  · intro t p r hr
    simp only [ofSites, F, H, S, V, G, DGDP]
    refine HasDerivAt.congr_deriv (by hd) ?_
    ring
  · intro t p r hr
    have pos := posr r hr
    refine grad_of_partials (DGDP_diff t p r (pos 0) (pos 1) (pos 2) (pos 3)) fun j => partial_of_update ?_
    fin_cases j
    · exact (DGDP_d0 t p (r 0) (r 1) (pos 0) (pos 1) (pos 2) (pos 3))
    · exact (DGDP_d1 t p (r 0) (r 1) (pos 0) (pos 1) (pos 2) (pos 3))
  · intro t p r hr i
    have pos := posr r hr
    fin_cases i
    · skip
      refine grad_of_partials (D2GDR0DP_diff t p r (pos 0) (pos 1) (pos 2) (pos 3)) fun j => partial_of_update ?_
      fin_cases j
      · exact (D2GDR0DP_d0 t p (r 0) (r 1) (pos 0) (pos 1) (pos 2) (pos 3))
      · exact (D2GDR0DP_d1 t p (r 0) (r 1) (pos 0) (pos 1) (pos 2) (pos 3))
    · skip
      refine grad_of_partials (D2GDR1DP_diff t p r (pos 0) (pos 1) (pos 2) (pos 3)) fun j => partial_of_update ?_
      fin_cases j
      · exact (D2GDR1DP_d0 t p (r 0) (r 1) (pos 0) (pos 1) (pos 2) (pos 3))
      · exact (D2GDR1DP_d1 t p (r 0) (r 1) (pos 0) (pos 1) (pos 2) (pos 3))
  · intro t p r hr
    simp only [ofSites, F, V, DGDP, D2GDTDP]
    refine HasDerivAt.congr_deriv (by hd) ?_
    ring
  · intro t p r hr
    simp only [ofSites, F, V, DGDP, D2GDP2]
    refine HasDerivAt.congr_deriv (by hd) ?_
    ring
  · intro t p r hr
    simp only [ofSites, F, D2GDTDP, D3GDT2DP]
    refine HasDerivAt.congr_deriv (by hd) ?_
    ring
  · intro t p r hr
    simp only [ofSites, F, D2GDTDP, D3GDTDP2]
    refine HasDerivAt.congr_deriv (by hd) ?_
    ring
  · intro t p r hr
    simp only [ofSites, F, D2GDP2, D3GDP3]
    refine HasDerivAt.congr_deriv (by hd) ?_
    ring
  · intro t p r hr i
    fin_cases i
    · change HasDerivAt (fun t => D2GDR0DP t p (r 0) (r 1) (raw r 0) (raw r 1) (raw r 2) (raw r 3)) (D3GDR0DTDP t p (r 0) (r 1) (raw r 0) (raw r 1) (raw r 2) (raw r 3)) t
      simp only [D2GDR0DP, D3GDR0DTDP]
      refine HasDerivAt.congr_deriv (by hd) ?_
      ring
    · change HasDerivAt (fun t => D2GDR1DP t p (r 0) (r 1) (raw r 0) (raw r 1) (raw r 2) (raw r 3)) (D3GDR1DTDP t p (r 0) (r 1) (raw r 0) (raw r 1) (raw r 2) (raw r 3)) t
      simp only [D2GDR1DP, D3GDR1DTDP]
      refine HasDerivAt.congr_deriv (by hd) ?_
      ring
  · intro t p r hr i
    fin_cases i
    · change HasDerivAt (fun p => D2GDR0DP t p (r 0) (r 1) (raw r 0) (raw r 1) (raw r 2) (raw r 3)) (D3GDR0DP2 t p (r 0) (r 1) (raw r 0) (raw r 1) (raw r 2) (raw r 3)) p
      simp only [D2GDR0DP, D3GDR0DP2]
      refine HasDerivAt.congr_deriv (by hd) ?_
      ring
    · change HasDerivAt (fun p => D2GDR1DP t p (r 0) (r 1) (raw r 0) (raw r 1) (raw r 2) (raw r 3)) (D3GDR1DP2 t p (r 0) (r 1) (raw r 0) (raw r 1) (raw r 2) (raw r 3)) p
      simp only [D2GDR1DP, D3GDR1DP2]
      refine HasDerivAt.congr_deriv (by hd) ?_
      ring
  · intro t p r hr i
    fin_cases i
    · change HasDerivAt (fun t => DGDR0 t p (r 0) (r 1) (raw r 0) (raw r 1) (raw r 2) (raw r 3)) (-(-(D2GDR0DT t p (r 0) (r 1) (raw r 0) (raw r 1) (raw r 2) (raw r 3)))) t
      simp only [DGDR0, D2GDR0DT]
      refine HasDerivAt.congr_deriv (by hd) ?_
      ring
    · change HasDerivAt (fun t => DGDR1 t p (r 0) (r 1) (raw r 0) (raw r 1) (raw r 2) (raw r 3)) (-(-(D2GDR1DT t p (r 0) (r 1) (raw r 0) (raw r 1) (raw r 2) (raw r 3)))) t
      simp only [DGDR1, D2GDR1DT]
      refine HasDerivAt.congr_deriv (by hd) ?_
      ring
  · intro t p r hr i
    fin_cases i
    · change HasDerivAt (fun p => DGDR0 t p (r 0) (r 1) (raw r 0) (raw r 1) (raw r 2) (raw r 3)) (D2GDR0DP t p (r 0) (r 1) (raw r 0) (raw r 1) (raw r 2) (raw r 3)) p
      simp only [DGDR0, D2GDR0DP]
      refine HasDerivAt.congr_deriv (by hd) ?_
      ring
    · change HasDerivAt (fun p => DGDR1 t p (r 0) (r 1) (raw r 0) (raw r 1) (raw r 2) (raw r 3)) (D2GDR1DP t p (r 0) (r 1) (raw r 0) (raw r 1) (raw r 2) (raw r 3)) p
      simp only [DGDR1, D2GDR1DP]
      refine HasDerivAt.congr_deriv (by hd) ?_
      ring
  · intro t p r hr h0 i
    fin_cases i
    · change HasDerivAt (fun t => -(D2GDR0DT t p (r 0) (r 1) (raw r 0) (raw r 1) (raw r 2) (raw r 3))) (-t * (D3GDR0DT2 t p (r 0) (r 1) (raw r 0) (raw r 1) (raw r 2) (raw r 3)) / t) t
      simp only [D2GDR0DT, D3GDR0DT2]
      refine HasDerivAt.congr_deriv (by hd) ?_
      first | ring | (field_simp; ring)
    · change HasDerivAt (fun t => -(D2GDR1DT t p (r 0) (r 1) (raw r 0) (raw r 1) (raw r 2) (raw r 3))) (-t * (D3GDR1DT2 t p (r 0) (r 1) (raw r 0) (raw r 1) (raw r 2) (raw r 3)) / t) t
      simp only [D2GDR1DT, D3GDR1DT2]
      refine HasDerivAt.congr_deriv (by hd) ?_
      first | ring | (field_simp; ring)
  · intro t p r hr
    refine grad_of_partials ?_ fun j => partial_of_update ?_
    · simp only [ofSites, F, D2GDP2]; dd
    · fin_cases j
      · change HasDerivAt (fun _ : ℝ => (0 : ℝ)) (0 : ℝ) _
        exact hasDerivAt_const _ _
      · change HasDerivAt (fun _ : ℝ => (0 : ℝ)) (0 : ℝ) _
        exact hasDerivAt_const _ _
  · intro t p r hr i j; fin_cases i <;> fin_cases j <;> rfl
  · intro t p r hr i j k; fin_cases i <;> fin_cases j <;> fin_cases k <;> exact ⟨rfl, rfl⟩
  · intro r hr; rfl

theorem raw_continuous (k : Fin 4) : Continuous fun r => raw r k := by
  fin_cases k
  · change Continuous fun r : Fin 2 → ℝ => 1 - r 0
    fun_prop
  · change Continuous fun r : Fin 2 → ℝ => r 0
    fun_prop
  · change Continuous fun r : Fin 2 → ℝ => 1 - r 1
    fun_prop
  · change Continuous fun r : Fin 2 → ℝ => r 1
    fun_prop

theorem consistent : mix.Consistent (Interior raw) := consistent_raw

/-- The dependent end member of hornblende.c. -/
def dep : Fin 3 := 0

end Hornblende

/-- **C24.** Hornblende (hornblende.c): derivatives, entropy, enthalpy, heat capacity and volume of mixing fit together. -/
theorem C24_hornblende : Hornblende.mix.Consistent (Interior Hornblende.raw) := Hornblende.consistent

/-- The interior contains the composition 1 / 4, 1 / 4. -/
example : Interior Hornblende.raw ![1 / 4, 1 / 4] := by
  intro k
  fin_cases k
  · change (1 - (1 / 4) : ℝ) > eps; unfold eps; norm_num
  · change ((1 / 4) : ℝ) > eps; unfold eps; norm_num
  · change (1 - (1 / 4) : ℝ) > eps; unfold eps; norm_num
  · change ((1 / 4) : ℝ) > eps; unfold eps; norm_num

/-- **C24.** The chemical potentials `act*` returns are the derivatives of the total Gibbs energy of mixing. -/
theorem C24_hornblende_potentials (t p : ℝ) (m : Fin 3 → ℝ) (h0 : ∑ i, m i ≠ 0)
    (hr : Interior Hornblende.raw (toR Hornblende.dep m)) (i : Fin 3) :
    Partial (fun m => (∑ i, m i) * Hornblende.mix.g t p (toR Hornblende.dep m)) m i
      (mu Hornblende.mix Hornblende.dep t p (toR Hornblende.dep m) i) :=
  C24_potential_is_derivative _ _ Hornblende.consistent _ t p m h0 hr i

/-- **C24.** The derivatives of the activities `act*` returns are their derivatives. -/
theorem C24_hornblende_activities (t p : ℝ) (r : Fin 2 → ℝ) (hr : Interior Hornblende.raw r) (i : Fin 3)
    (k : Fin 2) : Partial (fun r => act Hornblende.mix Hornblende.dep t p r i) r k (dact Hornblende.mix Hornblende.dep t p r i k) :=
  C24_activity_derivative _ _ Hornblende.consistent (isOpen_interior _ Hornblende.raw_continuous) _ t p r hr i k

end

end Magma.Thermo.Mixing
