import Verif.Thermo.Mixing
import Mathlib.Tactic.FinCases

/-!
Majorite. Generated by /verif/tools/gen/genmix.py from the macros of /repo/sources: one definition per macro, with the
macros it mentions as definitions (the generator checks that this has the value of C's textual substitution). The
theorem `C24_*` of each phase says that the outputs of its mixing functions fit together (`Mix.Consistent`) wherever
the site fractions are above `DBL_EPSILON`. Simplification: `double` is the real numbers.
-/

set_option linter.unusedVariables false
set_option linter.unusedTactic false
set_option linter.unreachableTactic false
set_option linter.unusedSimpArgs false

namespace Magma.Thermo.Mixing

open Magma.Thermo.Extensive Magma.Thermo.Compo

noncomputable section

namespace Majorite

/-- `WH12`, majorite.c 108. -/
def WH12 : ℝ := 45380

/-- `dWH12`, majorite.c 109. -/
def dWH12 : ℝ := -23820

/-- `WH13`, majorite.c 110. -/
def WH13 : ℝ := 11470

/-- `dWH13`, majorite.c 111. -/
def dWH13 : ℝ := 8850

/-- `WH14`, majorite.c 112. -/
def WH14 : ℝ := 0

/-- `WH23`, majorite.c 113. -/
def WH23 : ℝ := 1975

/-- `dWH23`, majorite.c 114. -/
def dWH23 : ℝ := -1750

/-- `WH24`, majorite.c 115. -/
def WH24 : ℝ := 0

/-- `WH34`, majorite.c 116. -/
def WH34 : ℝ := 0

/-- `WS12`, majorite.c 118. -/
def WS12 : ℝ := (1879 / 100)

/-- `WS13`, majorite.c 119. -/
def WS13 : ℝ := (127 / 25)

/-- `WS23`, majorite.c 120. -/
def WS23 : ℝ := 0

/-- `WV12`, majorite.c 122. -/
def WV12 : ℝ := (1 / 10)

/-- `dWV12`, majorite.c 123. -/
def dWV12 : ℝ := 0

/-- `WV13`, majorite.c 124. -/
def WV13 : ℝ := (13 / 100)

/-- `dWV13`, majorite.c 125. -/
def dWV13 : ℝ := (1 / 25)

/-- `WV23`, majorite.c 126. -/
def WV23 : ℝ := (7 / 200)

/-- `dWV23`, majorite.c 127. -/
def dWV23 : ℝ := -(1 / 40)

/-- `WG12`, majorite.c 129. -/
def WG12 (t p r0 r1 r2 xmg xfe xca xsi xal : ℝ) : ℝ :=
  WH12 - t * WS12 + p * WV12

/-- `WG13`, majorite.c 130. -/
def WG13 (t p r0 r1 r2 xmg xfe xca xsi xal : ℝ) : ℝ :=
  WH13 - t * WS13 + p * WV13

/-- `WG14`, majorite.c 131. -/
def WG14 : ℝ := WH14

/-- `WG23`, majorite.c 132. -/
def WG23 (t p r0 r1 r2 xmg xfe xca xsi xal : ℝ) : ℝ :=
  WH23 - t * WS23 + p * WV23

/-- `WG24`, majorite.c 133. -/
def WG24 : ℝ := WH24

/-- `WG34`, majorite.c 134. -/
def WG34 : ℝ := WH34

/-- `dWG12`, majorite.c 136. -/
def dWG12 (t p r0 r1 r2 xmg xfe xca xsi xal : ℝ) : ℝ :=
  dWH12 + p * dWV12

/-- `dWG13`, majorite.c 137. -/
def dWG13 (t p r0 r1 r2 xmg xfe xca xsi xal : ℝ) : ℝ :=
  dWH13 + p * dWV13

/-- `dWG23`, majorite.c 138. -/
def dWG23 (t p r0 r1 r2 xmg xfe xca xsi xal : ℝ) : ℝ :=
  dWH23 + p * dWV23

/-- `S`, majorite.c 156-159. -/
def S (t p r0 r1 r2 xmg xfe xca xsi xal : ℝ) : ℝ :=
  (-3) * R * (xca * Real.log xca + xmg * Real.log xmg + xfe * Real.log xfe) - 2 * R * (xsi * Real.log xsi + (1
    / 2) * xal * Real.log xal) + (1 - r0 - r1 - r2) * r0 * WS12 + (1 - r0 - r1 - r2) * r1 * WS13 + r0 * r1 *
    WS23

/-- `H`, majorite.c 160-165. -/
def H (t p r0 r1 r2 xmg xfe xca xsi xal : ℝ) : ℝ :=
  (1 - r0 - r1 - r2) * r0 * (WH12 + (1 - 2 * r0 - r1 - r2) * dWH12) + (1 - r0 - r1 - r2) * r1 * (WH13 + (1 -
    r0 - 2 * r1 - r2) * dWH13) + (1 - r0 - r1 - r2) * r2 * WH14 + r0 * r1 * (WH23 + (r0 - r1) * dWH23) + r0 * r2
    * WH24 + r1 * r2 * WH34

/-- `V`, majorite.c 166-168. -/
def V (t p r0 r1 r2 xmg xfe xca xsi xal : ℝ) : ℝ :=
  (1 - r0 - r1 - r2) * r0 * (WV12 + (1 - 2 * r0 - r1 - r2) * dWV12) + (1 - r0 - r1 - r2) * r1 * (WV13 + (1 -
    r0 - 2 * r1 - r2) * dWV13) + r0 * r1 * (WV23 + (r0 - r1) * dWV23)

/-- `G`, majorite.c 169-175. -/
def G (t p r0 r1 r2 xmg xfe xca xsi xal : ℝ) : ℝ :=
  3 * R * t * (xca * Real.log xca + xmg * Real.log xmg + xfe * Real.log xfe) + 2 * R * t * (xsi * Real.log xsi
    + (1 / 2) * xal * Real.log xal) + (1 - r0 - r1 - r2) * r0 * ((WG12 t p r0 r1 r2 xmg xfe xca xsi xal) + (1 -
    2 * r0 - r1 - r2) * (dWG12 t p r0 r1 r2 xmg xfe xca xsi xal)) + (1 - r0 - r1 - r2) * r1 * ((WG13 t p r0 r1
    r2 xmg xfe xca xsi xal) + (1 - r0 - 2 * r1 - r2) * (dWG13 t p r0 r1 r2 xmg xfe xca xsi xal)) + (1 - r0 - r1
    - r2) * r2 * WG14 + r0 * r1 * ((WG23 t p r0 r1 r2 xmg xfe xca xsi xal) + (r0 - r1) * (dWG23 t p r0 r1 r2 xmg
    xfe xca xsi xal)) + r0 * r2 * WG24 + r1 * r2 * WG34

/-- `DGDR0`, majorite.c 178-184. -/
def DGDR0 (t p r0 r1 r2 xmg xfe xca xsi xal : ℝ) : ℝ :=
  R * t * ((-3) * Real.log xca + 3 * Real.log xmg) + (1 - 2 * r0 - r1 - r2) * ((WG12 t p r0 r1 r2 xmg xfe xca
    xsi xal) + (1 - 2 * r0 - r1 - r2) * (dWG12 t p r0 r1 r2 xmg xfe xca xsi xal)) + (1 - r0 - r1 - r2) * r0 *
    ((-2) * (dWG12 t p r0 r1 r2 xmg xfe xca xsi xal)) - r1 * ((WG13 t p r0 r1 r2 xmg xfe xca xsi xal) + (1 - r0
    - 2 * r1 - r2) * (dWG13 t p r0 r1 r2 xmg xfe xca xsi xal)) + (1 - r0 - r1 - r2) * r1 * (-(dWG13 t p r0 r1 r2
    xmg xfe xca xsi xal)) - r2 * WG14 + r1 * ((WG23 t p r0 r1 r2 xmg xfe xca xsi xal) + (r0 - r1) * (dWG23 t p
    r0 r1 r2 xmg xfe xca xsi xal)) + r0 * r1 * (dWG23 t p r0 r1 r2 xmg xfe xca xsi xal) + r2 * WG24

/-- `DGDR1`, majorite.c 186-192. -/
def DGDR1 (t p r0 r1 r2 xmg xfe xca xsi xal : ℝ) : ℝ :=
  R * t * ((-3) * Real.log xca + 3 * Real.log xfe) - r0 * ((WG12 t p r0 r1 r2 xmg xfe xca xsi xal) + (1 - 2 *
    r0 - r1 - r2) * (dWG12 t p r0 r1 r2 xmg xfe xca xsi xal)) + (1 - r0 - r1 - r2) * r0 * (-(dWG12 t p r0 r1 r2
    xmg xfe xca xsi xal)) + (1 - r0 - 2 * r1 - r2) * ((WG13 t p r0 r1 r2 xmg xfe xca xsi xal) + (1 - r0 - 2 * r1
    - r2) * (dWG13 t p r0 r1 r2 xmg xfe xca xsi xal)) + (1 - r0 - r1 - r2) * r1 * ((-2) * (dWG13 t p r0 r1 r2
    xmg xfe xca xsi xal)) - r2 * WG14 + r0 * ((WG23 t p r0 r1 r2 xmg xfe xca xsi xal) + (r0 - r1) * (dWG23 t p
    r0 r1 r2 xmg xfe xca xsi xal)) + r0 * r1 * (-(dWG23 t p r0 r1 r2 xmg xfe xca xsi xal)) + r2 * WG34

/-- `DGDR2`, majorite.c 194-199. -/
def DGDR2 (t p r0 r1 r2 xmg xfe xca xsi xal : ℝ) : ℝ :=
  R * t * ((-3) * Real.log xca + 3 * Real.log xmg + Real.log xsi - Real.log xal) - r0 * ((WG12 t p r0 r1 r2
    xmg xfe xca xsi xal) + (1 - 2 * r0 - r1 - r2) * (dWG12 t p r0 r1 r2 xmg xfe xca xsi xal)) + (1 - r0 - r1 -
    r2) * r0 * (-(dWG12 t p r0 r1 r2 xmg xfe xca xsi xal)) - r1 * ((WG13 t p r0 r1 r2 xmg xfe xca xsi xal) + (1
    - r0 - 2 * r1 - r2) * (dWG13 t p r0 r1 r2 xmg xfe xca xsi xal)) + (1 - r0 - r1 - r2) * r1 * (-(dWG13 t p r0
    r1 r2 xmg xfe xca xsi xal)) + (1 - r0 - r1 - 2 * r2) * WG14 + r0 * WG24 + r1 * WG34

/-- `DGDP`, majorite.c 201. -/
def DGDP (t p r0 r1 r2 xmg xfe xca xsi xal : ℝ) : ℝ :=
  (V t p r0 r1 r2 xmg xfe xca xsi xal)

/-- `D2GDR0R0`, majorite.c 203-206. -/
def D2GDR0R0 (t p r0 r1 r2 xmg xfe xca xsi xal : ℝ) : ℝ :=
  R * t * (3 / xca + 3 / xmg) - 2 * ((WG12 t p r0 r1 r2 xmg xfe xca xsi xal) + (1 - 2 * r0 - r1 - r2) * (dWG12
    t p r0 r1 r2 xmg xfe xca xsi xal)) + (1 - 2 * r0 - r1 - r2) * ((-2) * (dWG12 t p r0 r1 r2 xmg xfe xca xsi
    xal)) + (1 - 2 * r0 - r1 - r2) * ((-2) * (dWG12 t p r0 r1 r2 xmg xfe xca xsi xal)) - r1 * (-(dWG13 t p r0 r1
    r2 xmg xfe xca xsi xal)) - r1 * (-(dWG13 t p r0 r1 r2 xmg xfe xca xsi xal)) + r1 * (dWG23 t p r0 r1 r2 xmg
    xfe xca xsi xal) + r1 * (dWG23 t p r0 r1 r2 xmg xfe xca xsi xal)

/-- `D2GDR0R1`, majorite.c 207-212. -/
def D2GDR0R1 (t p r0 r1 r2 xmg xfe xca xsi xal : ℝ) : ℝ :=
  R * t * (3 / xca) - ((WG12 t p r0 r1 r2 xmg xfe xca xsi xal) + (1 - 2 * r0 - r1 - r2) * (dWG12 t p r0 r1 r2
    xmg xfe xca xsi xal)) + (1 - 2 * r0 - r1 - r2) * (-(dWG12 t p r0 r1 r2 xmg xfe xca xsi xal)) - r0 * ((-2) *
    (dWG12 t p r0 r1 r2 xmg xfe xca xsi xal)) - ((WG13 t p r0 r1 r2 xmg xfe xca xsi xal) + (1 - r0 - 2 * r1 -
    r2) * (dWG13 t p r0 r1 r2 xmg xfe xca xsi xal)) - r1 * ((-2) * (dWG13 t p r0 r1 r2 xmg xfe xca xsi xal)) -
    r1 * (-(dWG13 t p r0 r1 r2 xmg xfe xca xsi xal)) + (1 - r0 - r1 - r2) * (-(dWG13 t p r0 r1 r2 xmg xfe xca
    xsi xal)) + ((WG23 t p r0 r1 r2 xmg xfe xca xsi xal) + (r0 - r1) * (dWG23 t p r0 r1 r2 xmg xfe xca xsi xal))
    + r1 * (-(dWG23 t p r0 r1 r2 xmg xfe xca xsi xal)) + r0 * (dWG23 t p r0 r1 r2 xmg xfe xca xsi xal)

/-- `D2GDR0R2`, majorite.c 213-217. -/
def D2GDR0R2 (t p r0 r1 r2 xmg xfe xca xsi xal : ℝ) : ℝ :=
  R * t * (3 / xca + 3 / xmg) - ((WG12 t p r0 r1 r2 xmg xfe xca xsi xal) + (1 - 2 * r0 - r1 - r2) * (dWG12 t p
    r0 r1 r2 xmg xfe xca xsi xal)) + (1 - 2 * r0 - r1 - r2) * (-(dWG12 t p r0 r1 r2 xmg xfe xca xsi xal)) - r0 *
    ((-2) * (dWG12 t p r0 r1 r2 xmg xfe xca xsi xal)) - r1 * (-(dWG13 t p r0 r1 r2 xmg xfe xca xsi xal)) - r1 *
    (-(dWG13 t p r0 r1 r2 xmg xfe xca xsi xal)) - WG14 + WG24

/-- `D2GDR0DT`, majorite.c 218-219. -/
def D2GDR0DT (t p r0 r1 r2 xmg xfe xca xsi xal : ℝ) : ℝ :=
  R * ((-3) * Real.log xca + 3 * Real.log xmg) - (1 - 2 * r0 - r1 - r2) * WS12 + r1 * WS13 - r1 * WS23

/-- `D2GDR0DP`, majorite.c 220-223. -/
def D2GDR0DP (t p r0 r1 r2 xmg xfe xca xsi xal : ℝ) : ℝ :=
  (1 - 2 * r0 - r1 - r2) * (WV12 + (1 - 2 * r0 - r1 - r2) * dWV12) + (1 - r0 - r1 - r2) * r0 * ((-2) * dWV12)
    - r1 * (WV13 + (1 - r0 - 2 * r1 - r2) * dWV13) + (1 - r0 - r1 - r2) * r1 * (-dWV13) + r1 * (WV23 + (r0 - r1)
    * dWV23) + r0 * r1 * dWV23

/-- `D2GDR1R1`, majorite.c 225-229. -/
def D2GDR1R1 (t p r0 r1 r2 xmg xfe xca xsi xal : ℝ) : ℝ :=
  R * t * (3 / xca + 3 / xfe) - r0 * (-(dWG12 t p r0 r1 r2 xmg xfe xca xsi xal)) - r0 * (-(dWG12 t p r0 r1 r2
    xmg xfe xca xsi xal)) - 2 * ((WG13 t p r0 r1 r2 xmg xfe xca xsi xal) + (1 - r0 - 2 * r1 - r2) * (dWG13 t p
    r0 r1 r2 xmg xfe xca xsi xal)) + (1 - r0 - 2 * r1 - r2) * ((-2) * (dWG13 t p r0 r1 r2 xmg xfe xca xsi xal))
    + (1 - r0 - 2 * r1 - r2) * ((-2) * (dWG13 t p r0 r1 r2 xmg xfe xca xsi xal)) + r0 * (-(dWG23 t p r0 r1 r2
    xmg xfe xca xsi xal)) + r0 * (-(dWG23 t p r0 r1 r2 xmg xfe xca xsi xal))

/-- `D2GDR1R2`, majorite.c 230-234. -/
def D2GDR1R2 (t p r0 r1 r2 xmg xfe xca xsi xal : ℝ) : ℝ :=
  R * t * (3 / xca) - r0 * (-(dWG12 t p r0 r1 r2 xmg xfe xca xsi xal)) - r0 * (-(dWG12 t p r0 r1 r2 xmg xfe
    xca xsi xal)) - ((WG13 t p r0 r1 r2 xmg xfe xca xsi xal) + (1 - r0 - 2 * r1 - r2) * (dWG13 t p r0 r1 r2 xmg
    xfe xca xsi xal)) + (1 - r0 - 2 * r1 - r2) * (-(dWG13 t p r0 r1 r2 xmg xfe xca xsi xal)) - r1 * ((-2) *
    (dWG13 t p r0 r1 r2 xmg xfe xca xsi xal)) - WG14 + WG34

/-- `D2GDR1DT`, majorite.c 235-238. -/
def D2GDR1DT (t p r0 r1 r2 xmg xfe xca xsi xal : ℝ) : ℝ :=
  R * ((-3) * Real.log xca + 3 * Real.log xfe) + r0 * WS12 + r1 * WS13 - (1 - r0 - r1 - r2) * WS13 - r0 * WS23

/-- `D2GDR1DP`, majorite.c 239-242. -/
def D2GDR1DP (t p r0 r1 r2 xmg xfe xca xsi xal : ℝ) : ℝ :=
  (-r0) * (WV12 + (1 - 2 * r0 - r1 - r2) * dWV12) + (1 - r0 - r1 - r2) * r0 * (-dWV12) + (1 - r0 - 2 * r1 -
    r2) * (WV13 + (1 - r0 - 2 * r1 - r2) * dWV13) + (1 - r0 - r1 - r2) * r1 * ((-2) * dWV13) + r0 * (WV23 + (r0
    - r1) * dWV23) + r0 * r1 * (-dWV23)

/-- `D2GDR2R2`, majorite.c 244-247. -/
def D2GDR2R2 (t p r0 r1 r2 xmg xfe xca xsi xal : ℝ) : ℝ :=
  R * t * (3 / xca + 3 / xmg + (1 / 2) / xsi + 1 / xal) - r0 * (-(dWG12 t p r0 r1 r2 xmg xfe xca xsi xal)) -
    r0 * (-(dWG12 t p r0 r1 r2 xmg xfe xca xsi xal)) - r1 * (-(dWG13 t p r0 r1 r2 xmg xfe xca xsi xal)) - r1 *
    (-(dWG13 t p r0 r1 r2 xmg xfe xca xsi xal)) - 2 * WG14

/-- `D2GDR2DT`, majorite.c 248. -/
def D2GDR2DT (t p r0 r1 r2 xmg xfe xca xsi xal : ℝ) : ℝ :=
  R * ((-3) * Real.log xca + 3 * Real.log xmg + Real.log xsi - Real.log xal) + r0 * WS12 + r1 * WS13

/-- `D2GDR2DP`, majorite.c 249-250. -/
def D2GDR2DP (t p r0 r1 r2 xmg xfe xca xsi xal : ℝ) : ℝ :=
  (-r0) * (WV12 + (1 - 2 * r0 - r1 - r2) * dWV12) + (1 - r0 - r1 - r2) * r0 * (-dWV12) - r1 * (WV13 + (1 - r0
    - 2 * r1 - r2) * dWV13) + (1 - r0 - r1 - r2) * r1 * (-dWV13)

/-- `D2GDT2`, majorite.c 252. -/
def D2GDT2 (t p r0 r1 r2 xmg xfe xca xsi xal : ℝ) : ℝ :=
  0

/-- `D2GDTDP`, majorite.c 253. -/
def D2GDTDP (t p r0 r1 r2 xmg xfe xca xsi xal : ℝ) : ℝ :=
  0

/-- `D2GDP2`, majorite.c 254. -/
def D2GDP2 (t p r0 r1 r2 xmg xfe xca xsi xal : ℝ) : ℝ :=
  0

/-- `D3GDR0R0R0`, majorite.c 256-257. -/
def D3GDR0R0R0 (t p r0 r1 r2 xmg xfe xca xsi xal : ℝ) : ℝ :=
  R * t * (3 / xca ^ 2 - 3 / xmg ^ 2) - 2 * ((-2) * (dWG12 t p r0 r1 r2 xmg xfe xca xsi xal)) - 2 * ((-2) *
    (dWG12 t p r0 r1 r2 xmg xfe xca xsi xal)) - 2 * ((-2) * (dWG12 t p r0 r1 r2 xmg xfe xca xsi xal))

/-- `D3GDR0R0R1`, majorite.c 258-259. -/
def D3GDR0R0R1 (t p r0 r1 r2 xmg xfe xca xsi xal : ℝ) : ℝ :=
  R * t * (3 / xca ^ 2) - 2 * (-(dWG12 t p r0 r1 r2 xmg xfe xca xsi xal)) - (-2) * (dWG12 t p r0 r1 r2 xmg xfe
    xca xsi xal) - (-2) * (dWG12 t p r0 r1 r2 xmg xfe xca xsi xal) - (-(dWG13 t p r0 r1 r2 xmg xfe xca xsi xal))
    - (-(dWG13 t p r0 r1 r2 xmg xfe xca xsi xal)) + (dWG23 t p r0 r1 r2 xmg xfe xca xsi xal) + (dWG23 t p r0 r1
    r2 xmg xfe xca xsi xal)

/-- `D3GDR0R0R2`, majorite.c 260-261. -/
def D3GDR0R0R2 (t p r0 r1 r2 xmg xfe xca xsi xal : ℝ) : ℝ :=
  R * t * (3 / xca ^ 2 - 3 / xmg ^ 2) - 2 * (-(dWG12 t p r0 r1 r2 xmg xfe xca xsi xal)) - (-2) * (dWG12 t p r0
    r1 r2 xmg xfe xca xsi xal) - (-2) * (dWG12 t p r0 r1 r2 xmg xfe xca xsi xal)

/-- `D3GDR0R0DT`, majorite.c 262. -/
def D3GDR0R0DT (t p r0 r1 r2 xmg xfe xca xsi xal : ℝ) : ℝ :=
  R * (3 / xca + 3 / xmg) + 2 * WS12

/-- `D3GDR0R0DP`, majorite.c 263-265. -/
def D3GDR0R0DP (t p r0 r1 r2 xmg xfe xca xsi xal : ℝ) : ℝ :=
  (-2) * (WV12 + (1 - 2 * r0 - r1 - r2) * dWV12) + (1 - 2 * r0 - r1 - r2) * ((-2) * dWV12) + (1 - 2 * r0 - r1
    - r2) * ((-2) * dWV12) - r1 * (-dWV13) - r1 * (-dWV13) + r1 * dWV23 + r1 * dWV23

/-- `D3GDR0R1R1`, majorite.c 267-268. -/
def D3GDR0R1R1 (t p r0 r1 r2 xmg xfe xca xsi xal : ℝ) : ℝ :=
  R * t * (3 / xca ^ 2) - (-(dWG12 t p r0 r1 r2 xmg xfe xca xsi xal)) - (-(dWG12 t p r0 r1 r2 xmg xfe xca xsi
    xal)) - (-2) * (dWG13 t p r0 r1 r2 xmg xfe xca xsi xal) - (-2) * (dWG13 t p r0 r1 r2 xmg xfe xca xsi xal) -
    (-(dWG13 t p r0 r1 r2 xmg xfe xca xsi xal)) - (-(dWG13 t p r0 r1 r2 xmg xfe xca xsi xal)) + (-(dWG23 t p r0
    r1 r2 xmg xfe xca xsi xal)) + (-(dWG23 t p r0 r1 r2 xmg xfe xca xsi xal))

/-- `D3GDR0R1R2`, majorite.c 269. -/
def D3GDR0R1R2 (t p r0 r1 r2 xmg xfe xca xsi xal : ℝ) : ℝ :=
  R * t * (3 / xca ^ 2) - (-(dWG12 t p r0 r1 r2 xmg xfe xca xsi xal)) - (-(dWG12 t p r0 r1 r2 xmg xfe xca xsi
    xal)) - (-(dWG13 t p r0 r1 r2 xmg xfe xca xsi xal)) - (-(dWG13 t p r0 r1 r2 xmg xfe xca xsi xal))

/-- `D3GDR0R1DT`, majorite.c 270. -/
def D3GDR0R1DT (t p r0 r1 r2 xmg xfe xca xsi xal : ℝ) : ℝ :=
  R * (3 / xca) + WS12 + WS13 - WS23

/-- `D3GDR0R1DP`, majorite.c 271-275. -/
def D3GDR0R1DP (t p r0 r1 r2 xmg xfe xca xsi xal : ℝ) : ℝ :=
  -(WV12 + (1 - 2 * r0 - r1 - r2) * dWV12) + (1 - 2 * r0 - r1 - r2) * (-dWV12) - r0 * ((-2) * dWV12) - (WV13 +
    (1 - r0 - 2 * r1 - r2) * dWV13) - r1 * ((-2) * dWV13) - r1 * (-dWV13) + (1 - r0 - r1 - r2) * (-dWV13) +
    (WV23 + (r0 - r1) * dWV23) + r1 * (-dWV23) + r0 * dWV23

/-- `D3GDR0R2R2`, majorite.c 277. -/
def D3GDR0R2R2 (t p r0 r1 r2 xmg xfe xca xsi xal : ℝ) : ℝ :=
  R * t * (3 / xca ^ 2 - 3 / xmg ^ 2) - (-(dWG12 t p r0 r1 r2 xmg xfe xca xsi xal)) - (-(dWG12 t p r0 r1 r2
    xmg xfe xca xsi xal))

/-- `D3GDR0R2DT`, majorite.c 278. -/
def D3GDR0R2DT (t p r0 r1 r2 xmg xfe xca xsi xal : ℝ) : ℝ :=
  R * (3 / xca + 3 / xmg) + WS12

/-- `D3GDR0R2DP`, majorite.c 279-280. -/
def D3GDR0R2DP (t p r0 r1 r2 xmg xfe xca xsi xal : ℝ) : ℝ :=
  -(WV12 + (1 - 2 * r0 - r1 - r2) * dWV12) + (1 - 2 * r0 - r1 - r2) * (-dWV12) - r0 * ((-2) * dWV12) - r1 *
    (-dWV13) - r1 * (-dWV13)

/-- `D3GDR1R1R1`, majorite.c 282-283. -/
def D3GDR1R1R1 (t p r0 r1 r2 xmg xfe xca xsi xal : ℝ) : ℝ :=
  R * t * (3 / xca ^ 2 - 3 / xfe ^ 2) - 2 * ((-2) * (dWG13 t p r0 r1 r2 xmg xfe xca xsi xal)) - 2 * ((-2) *
    (dWG13 t p r0 r1 r2 xmg xfe xca xsi xal)) - 2 * ((-2) * (dWG13 t p r0 r1 r2 xmg xfe xca xsi xal))

/-- `D3GDR1R1R2`, majorite.c 284-285. -/
def D3GDR1R1R2 (t p r0 r1 r2 xmg xfe xca xsi xal : ℝ) : ℝ :=
  R * t * (3 / xca ^ 2) - 2 * (-(dWG13 t p r0 r1 r2 xmg xfe xca xsi xal)) - (-2) * (dWG13 t p r0 r1 r2 xmg xfe
    xca xsi xal) - (-2) * (dWG13 t p r0 r1 r2 xmg xfe xca xsi xal)

/-- `D3GDR1R1DT`, majorite.c 286. -/
def D3GDR1R1DT (t p r0 r1 r2 xmg xfe xca xsi xal : ℝ) : ℝ :=
  R * (3 / xca + 3 / xfe) + WS13 + WS13

/-- `D3GDR1R1DP`, majorite.c 287-290. -/
def D3GDR1R1DP (t p r0 r1 r2 xmg xfe xca xsi xal : ℝ) : ℝ :=
  (-r0) * (-dWV12) - r0 * (-dWV12) - 2 * (WV13 + (1 - r0 - 2 * r1 - r2) * dWV13) + (1 - r0 - 2 * r1 - r2) *
    ((-2) * dWV13) + (1 - r0 - 2 * r1 - r2) * ((-2) * dWV13) + r0 * (-dWV23) + r0 * (-dWV23)

/-- `D3GDR1R2R2`, majorite.c 292. -/
def D3GDR1R2R2 (t p r0 r1 r2 xmg xfe xca xsi xal : ℝ) : ℝ :=
  R * t * (3 / xca ^ 2) + (dWG13 t p r0 r1 r2 xmg xfe xca xsi xal) - (-(dWG13 t p r0 r1 r2 xmg xfe xca xsi
    xal))

/-- `D3GDR1R2DT`, majorite.c 293. -/
def D3GDR1R2DT (t p r0 r1 r2 xmg xfe xca xsi xal : ℝ) : ℝ :=
  R * (3 / xca) + WS13

/-- `D3GDR1R2DP`, majorite.c 294-295. -/
def D3GDR1R2DP (t p r0 r1 r2 xmg xfe xca xsi xal : ℝ) : ℝ :=
  (-r0) * (-dWV12) - r0 * (-dWV12) - (WV13 + (1 - r0 - 2 * r1 - r2) * dWV13) + (1 - r0 - 2 * r1 - r2) *
    (-dWV13) - r1 * ((-2) * dWV13)

/-- `D3GDR2R2R2`, majorite.c 297. -/
def D3GDR2R2R2 (t p r0 r1 r2 xmg xfe xca xsi xal : ℝ) : ℝ :=
  R * t * (3 / xca ^ 2 - 3 / xmg ^ 2 - (1 / 4) / xsi ^ 2 + 1 / xal ^ 2)

/-- `D3GDR2R2DT`, majorite.c 298. -/
def D3GDR2R2DT (t p r0 r1 r2 xmg xfe xca xsi xal : ℝ) : ℝ :=
  R * (3 / xca + 3 / xmg + (1 / 2) / xsi + 1 / xal)

/-- `D3GDR2R2DP`, majorite.c 299. -/
def D3GDR2R2DP (t p r0 r1 r2 xmg xfe xca xsi xal : ℝ) : ℝ :=
  (-r0) * (-dWV12) - r0 * (-dWV12) - r1 * (-dWV13) - r1 * (-dWV13)

/-- `D3GDT3`, majorite.c 301. -/
def D3GDT3 (t p r0 r1 r2 xmg xfe xca xsi xal : ℝ) : ℝ :=
  0

/-- `D3GDT2DP`, majorite.c 302. -/
def D3GDT2DP (t p r0 r1 r2 xmg xfe xca xsi xal : ℝ) : ℝ :=
  0

/-- `D3GDTDP2`, majorite.c 303. -/
def D3GDTDP2 (t p r0 r1 r2 xmg xfe xca xsi xal : ℝ) : ℝ :=
  0

/-- `D3GDP3`, majorite.c 304. -/
def D3GDP3 (t p r0 r1 r2 xmg xfe xca xsi xal : ℝ) : ℝ :=
  0

/-- `D3GDR0DT2`, majorite.c 306. -/
def D3GDR0DT2 (t p r0 r1 r2 xmg xfe xca xsi xal : ℝ) : ℝ :=
  0

/-- `D3GDR0DTDP`, majorite.c 307. -/
def D3GDR0DTDP (t p r0 r1 r2 xmg xfe xca xsi xal : ℝ) : ℝ :=
  0

/-- `D3GDR0DP2`, majorite.c 308. -/
def D3GDR0DP2 (t p r0 r1 r2 xmg xfe xca xsi xal : ℝ) : ℝ :=
  0

/-- `D3GDR1DT2`, majorite.c 309. -/
def D3GDR1DT2 (t p r0 r1 r2 xmg xfe xca xsi xal : ℝ) : ℝ :=
  0

/-- `D3GDR1DTDP`, majorite.c 310. -/
def D3GDR1DTDP (t p r0 r1 r2 xmg xfe xca xsi xal : ℝ) : ℝ :=
  0

/-- `D3GDR1DP2`, majorite.c 311. -/
def D3GDR1DP2 (t p r0 r1 r2 xmg xfe xca xsi xal : ℝ) : ℝ :=
  0

/-- `D3GDR2DT2`, majorite.c 312. -/
def D3GDR2DT2 (t p r0 r1 r2 xmg xfe xca xsi xal : ℝ) : ℝ :=
  0

/-- `D3GDR2DTDP`, majorite.c 313. -/
def D3GDR2DTDP (t p r0 r1 r2 xmg xfe xca xsi xal : ℝ) : ℝ :=
  0

/-- `D3GDR2DP2`, majorite.c 314. -/
def D3GDR2DP2 (t p r0 r1 r2 xmg xfe xca xsi xal : ℝ) : ℝ :=
  0

/-- The macros as the functions of majorite.c use them: `gmix`, `hmix`, `smix`, `cpmix`, `vmix` and `act`. -/
def F (x : Fin 5 → ℝ) : Mix 3 where
  g t p r := G t p (r 0) (r 1) (r 2) (x 0) (x 1) (x 2) (x 3) (x 4)
  gr t p r := ![DGDR0 t p (r 0) (r 1) (r 2) (x 0) (x 1) (x 2) (x 3) (x 4), DGDR1 t p (r 0) (r 1) (r 2) (x 0) (x 1) (x 2) (x 3) (x 4), DGDR2 t p (r 0) (r 1) (r 2) (x 0) (x 1) (x 2) (x 3) (x 4)]
  grr t p r := ![![D2GDR0R0 t p (r 0) (r 1) (r 2) (x 0) (x 1) (x 2) (x 3) (x 4), D2GDR0R1 t p (r 0) (r 1) (r 2) (x 0) (x 1) (x 2) (x 3) (x 4), D2GDR0R2 t p (r 0) (r 1) (r 2) (x 0) (x 1) (x 2) (x 3) (x 4)], ![D2GDR0R1 t p (r 0) (r 1) (r 2) (x 0) (x 1) (x 2) (x 3) (x 4), D2GDR1R1 t p (r 0) (r 1) (r 2) (x 0) (x 1) (x 2) (x 3) (x 4), D2GDR1R2 t p (r 0) (r 1) (r 2) (x 0) (x 1) (x 2) (x 3) (x 4)], ![D2GDR0R2 t p (r 0) (r 1) (r 2) (x 0) (x 1) (x 2) (x 3) (x 4), D2GDR1R2 t p (r 0) (r 1) (r 2) (x 0) (x 1) (x 2) (x 3) (x 4), D2GDR2R2 t p (r 0) (r 1) (r 2) (x 0) (x 1) (x 2) (x 3) (x 4)]]
  grrr t p r := ![![![D3GDR0R0R0 t p (r 0) (r 1) (r 2) (x 0) (x 1) (x 2) (x 3) (x 4), D3GDR0R0R1 t p (r 0) (r 1) (r 2) (x 0) (x 1) (x 2) (x 3) (x 4), D3GDR0R0R2 t p (r 0) (r 1) (r 2) (x 0) (x 1) (x 2) (x 3) (x 4)], ![D3GDR0R0R1 t p (r 0) (r 1) (r 2) (x 0) (x 1) (x 2) (x 3) (x 4), D3GDR0R1R1 t p (r 0) (r 1) (r 2) (x 0) (x 1) (x 2) (x 3) (x 4), D3GDR0R1R2 t p (r 0) (r 1) (r 2) (x 0) (x 1) (x 2) (x 3) (x 4)], ![D3GDR0R0R2 t p (r 0) (r 1) (r 2) (x 0) (x 1) (x 2) (x 3) (x 4), D3GDR0R1R2 t p (r 0) (r 1) (r 2) (x 0) (x 1) (x 2) (x 3) (x 4), D3GDR0R2R2 t p (r 0) (r 1) (r 2) (x 0) (x 1) (x 2) (x 3) (x 4)]], ![![D3GDR0R0R1 t p (r 0) (r 1) (r 2) (x 0) (x 1) (x 2) (x 3) (x 4), D3GDR0R1R1 t p (r 0) (r 1) (r 2) (x 0) (x 1) (x 2) (x 3) (x 4), D3GDR0R1R2 t p (r 0) (r 1) (r 2) (x 0) (x 1) (x 2) (x 3) (x 4)], ![D3GDR0R1R1 t p (r 0) (r 1) (r 2) (x 0) (x 1) (x 2) (x 3) (x 4), D3GDR1R1R1 t p (r 0) (r 1) (r 2) (x 0) (x 1) (x 2) (x 3) (x 4), D3GDR1R1R2 t p (r 0) (r 1) (r 2) (x 0) (x 1) (x 2) (x 3) (x 4)], ![D3GDR0R1R2 t p (r 0) (r 1) (r 2) (x 0) (x 1) (x 2) (x 3) (x 4), D3GDR1R1R2 t p (r 0) (r 1) (r 2) (x 0) (x 1) (x 2) (x 3) (x 4), D3GDR1R2R2 t p (r 0) (r 1) (r 2) (x 0) (x 1) (x 2) (x 3) (x 4)]], ![![D3GDR0R0R2 t p (r 0) (r 1) (r 2) (x 0) (x 1) (x 2) (x 3) (x 4), D3GDR0R1R2 t p (r 0) (r 1) (r 2) (x 0) (x 1) (x 2) (x 3) (x 4), D3GDR0R2R2 t p (r 0) (r 1) (r 2) (x 0) (x 1) (x 2) (x 3) (x 4)], ![D3GDR0R1R2 t p (r 0) (r 1) (r 2) (x 0) (x 1) (x 2) (x 3) (x 4), D3GDR1R1R2 t p (r 0) (r 1) (r 2) (x 0) (x 1) (x 2) (x 3) (x 4), D3GDR1R2R2 t p (r 0) (r 1) (r 2) (x 0) (x 1) (x 2) (x 3) (x 4)], ![D3GDR0R2R2 t p (r 0) (r 1) (r 2) (x 0) (x 1) (x 2) (x 3) (x 4), D3GDR1R2R2 t p (r 0) (r 1) (r 2) (x 0) (x 1) (x 2) (x 3) (x 4), D3GDR2R2R2 t p (r 0) (r 1) (r 2) (x 0) (x 1) (x 2) (x 3) (x 4)]]]
  h t p r := (G t p (r 0) (r 1) (r 2) (x 0) (x 1) (x 2) (x 3) (x 4)) + t * (S t p (r 0) (r 1) (r 2) (x 0) (x 1) (x 2) (x 3) (x 4))
  s t p r := S t p (r 0) (r 1) (r 2) (x 0) (x 1) (x 2) (x 3) (x 4)
  sr t p r := ![-(D2GDR0DT t p (r 0) (r 1) (r 2) (x 0) (x 1) (x 2) (x 3) (x 4)), -(D2GDR1DT t p (r 0) (r 1) (r 2) (x 0) (x 1) (x 2) (x 3) (x 4)), -(D2GDR2DT t p (r 0) (r 1) (r 2) (x 0) (x 1) (x 2) (x 3) (x 4))]
  srr t p r := ![![-(D3GDR0R0DT t p (r 0) (r 1) (r 2) (x 0) (x 1) (x 2) (x 3) (x 4)), -(D3GDR0R1DT t p (r 0) (r 1) (r 2) (x 0) (x 1) (x 2) (x 3) (x 4)), -(D3GDR0R2DT t p (r 0) (r 1) (r 2) (x 0) (x 1) (x 2) (x 3) (x 4))], ![-(D3GDR0R1DT t p (r 0) (r 1) (r 2) (x 0) (x 1) (x 2) (x 3) (x 4)), -(D3GDR1R1DT t p (r 0) (r 1) (r 2) (x 0) (x 1) (x 2) (x 3) (x 4)), -(D3GDR1R2DT t p (r 0) (r 1) (r 2) (x 0) (x 1) (x 2) (x 3) (x 4))], ![-(D3GDR0R2DT t p (r 0) (r 1) (r 2) (x 0) (x 1) (x 2) (x 3) (x 4)), -(D3GDR1R2DT t p (r 0) (r 1) (r 2) (x 0) (x 1) (x 2) (x 3) (x 4)), -(D3GDR2R2DT t p (r 0) (r 1) (r 2) (x 0) (x 1) (x 2) (x 3) (x 4))]]
  cp t p r := -t * (D2GDT2 t p (r 0) (r 1) (r 2) (x 0) (x 1) (x 2) (x 3) (x 4))
  cpt t p r := -t * (D3GDT3 t p (r 0) (r 1) (r 2) (x 0) (x 1) (x 2) (x 3) (x 4)) - D2GDT2 t p (r 0) (r 1) (r 2) (x 0) (x 1) (x 2) (x 3) (x 4)
  cpr t p r := ![-t * (D3GDR0DT2 t p (r 0) (r 1) (r 2) (x 0) (x 1) (x 2) (x 3) (x 4)), -t * (D3GDR1DT2 t p (r 0) (r 1) (r 2) (x 0) (x 1) (x 2) (x 3) (x 4)), -t * (D3GDR2DT2 t p (r 0) (r 1) (r 2) (x 0) (x 1) (x 2) (x 3) (x 4))]
  v t p r := DGDP t p (r 0) (r 1) (r 2) (x 0) (x 1) (x 2) (x 3) (x 4)
  vr t p r := ![D2GDR0DP t p (r 0) (r 1) (r 2) (x 0) (x 1) (x 2) (x 3) (x 4), D2GDR1DP t p (r 0) (r 1) (r 2) (x 0) (x 1) (x 2) (x 3) (x 4), D2GDR2DP t p (r 0) (r 1) (r 2) (x 0) (x 1) (x 2) (x 3) (x 4)]
  vrr t p r := ![![D3GDR0R0DP t p (r 0) (r 1) (r 2) (x 0) (x 1) (x 2) (x 3) (x 4), D3GDR0R1DP t p (r 0) (r 1) (r 2) (x 0) (x 1) (x 2) (x 3) (x 4), D3GDR0R2DP t p (r 0) (r 1) (r 2) (x 0) (x 1) (x 2) (x 3) (x 4)], ![D3GDR0R1DP t p (r 0) (r 1) (r 2) (x 0) (x 1) (x 2) (x 3) (x 4), D3GDR1R1DP t p (r 0) (r 1) (r 2) (x 0) (x 1) (x 2) (x 3) (x 4), D3GDR1R2DP t p (r 0) (r 1) (r 2) (x 0) (x 1) (x 2) (x 3) (x 4)], ![D3GDR0R2DP t p (r 0) (r 1) (r 2) (x 0) (x 1) (x 2) (x 3) (x 4), D3GDR1R2DP t p (r 0) (r 1) (r 2) (x 0) (x 1) (x 2) (x 3) (x 4), D3GDR2R2DP t p (r 0) (r 1) (r 2) (x 0) (x 1) (x 2) (x 3) (x 4)]]
  vt t p r := D2GDTDP t p (r 0) (r 1) (r 2) (x 0) (x 1) (x 2) (x 3) (x 4)
  vp t p r := D2GDP2 t p (r 0) (r 1) (r 2) (x 0) (x 1) (x 2) (x 3) (x 4)
  vtt t p r := D3GDT2DP t p (r 0) (r 1) (r 2) (x 0) (x 1) (x 2) (x 3) (x 4)
  vtp t p r := D3GDTDP2 t p (r 0) (r 1) (r 2) (x 0) (x 1) (x 2) (x 3) (x 4)
  vpp t p r := D3GDP3 t p (r 0) (r 1) (r 2) (x 0) (x 1) (x 2) (x 3) (x 4)
  vrt t p r := ![D3GDR0DTDP t p (r 0) (r 1) (r 2) (x 0) (x 1) (x 2) (x 3) (x 4), D3GDR1DTDP t p (r 0) (r 1) (r 2) (x 0) (x 1) (x 2) (x 3) (x 4), D3GDR2DTDP t p (r 0) (r 1) (r 2) (x 0) (x 1) (x 2) (x 3) (x 4)]
  vrp t p r := ![D3GDR0DP2 t p (r 0) (r 1) (r 2) (x 0) (x 1) (x 2) (x 3) (x 4), D3GDR1DP2 t p (r 0) (r 1) (r 2) (x 0) (x 1) (x 2) (x 3) (x 4), D3GDR2DP2 t p (r 0) (r 1) (r 2) (x 0) (x 1) (x 2) (x 3) (x 4)]
  fx r := r

/-- Site fractions before clamping, lines 638 639 640 641 642 729 730 731 732 733 785 786 787 788 789 801 802 803 804 805 of majorite.c. -/
def raw (r : Fin 3 → ℝ) : Fin 5 → ℝ := ![r 0 + r 2, r 1, 1 - r 0 - r 1 - r 2, r 2 / 2, 1 - r 2]

/-- The phase as coded in majorite.c. -/
def mix : Mix 3 := ofSites F fun r k => clamp (raw r k)

theorem G_d0 (t p r0 r1 r2 : ℝ) (h0 : 0 < r0 + r2) (h1 : 0 < r1) (h2 : 0 < 1 - r0 - r1 - r2) (h3 : 0 < r2 / 2) (h4 : 0 < 1 - r2) :
    HasDerivAt (fun r0 => G t p r0 r1 r2 (r0 + r2) r1 (1 - r0 - r1 - r2) (r2 / 2) (1 - r2)) (DGDR0 t p r0 r1 r2 (r0 + r2) r1 (1 - r0 - r1 - r2) (r2 / 2) (1 - r2)) r0 := by
  have n0 := h0.ne'
  have n1 := h1.ne'
  have n2 := h2.ne'
  have n3 := h3.ne'
  have n4 := h4.ne'
  have a0 : r2 ≠ 0 := fun h => by simp [h] at n3
  simp only [WG12, dWG12, WG13, dWG13, WG23, dWG23, G, DGDR0]
  refine HasDerivAt.congr_deriv (by hd) ?_
  all_goals first | ring1 | (field_simp; done) | (field_simp; ring1)

theorem G_d1 (t p r0 r1 r2 : ℝ) (h0 : 0 < r0 + r2) (h1 : 0 < r1) (h2 : 0 < 1 - r0 - r1 - r2) (h3 : 0 < r2 / 2) (h4 : 0 < 1 - r2) :
    HasDerivAt (fun r1 => G t p r0 r1 r2 (r0 + r2) r1 (1 - r0 - r1 - r2) (r2 / 2) (1 - r2)) (DGDR1 t p r0 r1 r2 (r0 + r2) r1 (1 - r0 - r1 - r2) (r2 / 2) (1 - r2)) r1 := by
  have n0 := h0.ne'
  have n1 := h1.ne'
  have n2 := h2.ne'
  have n3 := h3.ne'
  have n4 := h4.ne'
  have a0 : r2 ≠ 0 := fun h => by simp [h] at n3
  simp only [WG12, dWG12, WG13, dWG13, WG23, dWG23, G, DGDR1]
  refine HasDerivAt.congr_deriv (by hd) ?_
  all_goals first | ring1 | (field_simp; done) | (field_simp; ring1)

theorem G_d2 (t p r0 r1 r2 : ℝ) (h0 : 0 < r0 + r2) (h1 : 0 < r1) (h2 : 0 < 1 - r0 - r1 - r2) (h3 : 0 < r2 / 2) (h4 : 0 < 1 - r2) :
    HasDerivAt (fun r2 => G t p r0 r1 r2 (r0 + r2) r1 (1 - r0 - r1 - r2) (r2 / 2) (1 - r2)) (DGDR2 t p r0 r1 r2 (r0 + r2) r1 (1 - r0 - r1 - r2) (r2 / 2) (1 - r2)) r2 := by
  have n0 := h0.ne'
  have n1 := h1.ne'
  have n2 := h2.ne'
  have n3 := h3.ne'
  have n4 := h4.ne'
  have a0 : r2 ≠ 0 := fun h => by simp [h] at n3
  simp only [WG12, dWG12, WG13, dWG13, WG23, dWG23, G, DGDR2]
  refine HasDerivAt.congr_deriv (by hd) ?_
  all_goals first | ring1 | (field_simp; done) | (field_simp; ring1)

theorem G_diff (t p : ℝ) (r : Fin 3 → ℝ) (h0 : 0 < r 0 + r 2) (h1 : 0 < r 1) (h2 : 0 < 1 - r 0 - r 1 - r 2) (h3 : 0 < r 2 / 2) (h4 : 0 < 1 - r 2) :
    DifferentiableAt ℝ (fun r : Fin 3 → ℝ => G t p (r 0) (r 1) (r 2) (r 0 + r 2) (r 1) (1 - r 0 - r 1 - r 2) (r 2 / 2) (1 - r 2)) r := by
  have n0 := h0.ne'
  have n1 := h1.ne'
  have n2 := h2.ne'
  have n3 := h3.ne'
  have n4 := h4.ne'
  simp only [WG12, dWG12, WG13, dWG13, WG23, dWG23, G]
  dd

theorem DGDR0_d0 (t p r0 r1 r2 : ℝ) (h0 : 0 < r0 + r2) (h1 : 0 < r1) (h2 : 0 < 1 - r0 - r1 - r2) (h3 : 0 < r2 / 2) (h4 : 0 < 1 - r2) :
    HasDerivAt (fun r0 => DGDR0 t p r0 r1 r2 (r0 + r2) r1 (1 - r0 - r1 - r2) (r2 / 2) (1 - r2)) (D2GDR0R0 t p r0 r1 r2 (r0 + r2) r1 (1 - r0 - r1 - r2) (r2 / 2) (1 - r2)) r0 := by
  have n0 := h0.ne'
  have n1 := h1.ne'
  have n2 := h2.ne'
  have n3 := h3.ne'
  have n4 := h4.ne'
  have a0 : r2 ≠ 0 := fun h => by simp [h] at n3
  simp only [WG12, dWG12, WG13, dWG13, WG23, dWG23, DGDR0, D2GDR0R0]
  refine HasDerivAt.congr_deriv (by hd) ?_
  all_goals first | ring1 | (field_simp; done) | (field_simp; ring1)

theorem DGDR0_d1 (t p r0 r1 r2 : ℝ) (h0 : 0 < r0 + r2) (h1 : 0 < r1) (h2 : 0 < 1 - r0 - r1 - r2) (h3 : 0 < r2 / 2) (h4 : 0 < 1 - r2) :
    HasDerivAt (fun r1 => DGDR0 t p r0 r1 r2 (r0 + r2) r1 (1 - r0 - r1 - r2) (r2 / 2) (1 - r2)) (D2GDR0R1 t p r0 r1 r2 (r0 + r2) r1 (1 - r0 - r1 - r2) (r2 / 2) (1 - r2)) r1 := by
  have n0 := h0.ne'
  have n1 := h1.ne'
  have n2 := h2.ne'
  have n3 := h3.ne'
  have n4 := h4.ne'
  have a0 : r2 ≠ 0 := fun h => by simp [h] at n3
  simp only [WG12, dWG12, WG13, dWG13, WG23, dWG23, DGDR0, D2GDR0R1]
  refine HasDerivAt.congr_deriv (by hd) ?_
  all_goals first | ring1 | (field_simp; done) | (field_simp; ring1)

theorem DGDR0_d2 (t p r0 r1 r2 : ℝ) (h0 : 0 < r0 + r2) (h1 : 0 < r1) (h2 : 0 < 1 - r0 - r1 - r2) (h3 : 0 < r2 / 2) (h4 : 0 < 1 - r2) :
    HasDerivAt (fun r2 => DGDR0 t p r0 r1 r2 (r0 + r2) r1 (1 - r0 - r1 - r2) (r2 / 2) (1 - r2)) (D2GDR0R2 t p r0 r1 r2 (r0 + r2) r1 (1 - r0 - r1 - r2) (r2 / 2) (1 - r2)) r2 := by
  have n0 := h0.ne'
  have n1 := h1.ne'
  have n2 := h2.ne'
  have n3 := h3.ne'
  have n4 := h4.ne'
  have a0 : r2 ≠ 0 := fun h => by simp [h] at n3
  simp only [WG12, dWG12, WG13, dWG13, WG23, dWG23, DGDR0, D2GDR0R2]
  refine HasDerivAt.congr_deriv (by hd) ?_
  all_goals first | ring1 | (field_simp; done) | (field_simp; ring1)

theorem DGDR0_diff (t p : ℝ) (r : Fin 3 → ℝ) (h0 : 0 < r 0 + r 2) (h1 : 0 < r 1) (h2 : 0 < 1 - r 0 - r 1 - r 2) (h3 : 0 < r 2 / 2) (h4 : 0 < 1 - r 2) :
    DifferentiableAt ℝ (fun r : Fin 3 → ℝ => DGDR0 t p (r 0) (r 1) (r 2) (r 0 + r 2) (r 1) (1 - r 0 - r 1 - r 2) (r 2 / 2) (1 - r 2)) r := by
  have n0 := h0.ne'
  have n1 := h1.ne'
  have n2 := h2.ne'
  have n3 := h3.ne'
  have n4 := h4.ne'
  simp only [WG12, dWG12, WG13, dWG13, WG23, dWG23, DGDR0]
  dd

theorem DGDR1_d0 (t p r0 r1 r2 : ℝ) (h0 : 0 < r0 + r2) (h1 : 0 < r1) (h2 : 0 < 1 - r0 - r1 - r2) (h3 : 0 < r2 / 2) (h4 : 0 < 1 - r2) :
    HasDerivAt (fun r0 => DGDR1 t p r0 r1 r2 (r0 + r2) r1 (1 - r0 - r1 - r2) (r2 / 2) (1 - r2)) (D2GDR0R1 t p r0 r1 r2 (r0 + r2) r1 (1 - r0 - r1 - r2) (r2 / 2) (1 - r2)) r0 := by
  have n0 := h0.ne'
  have n1 := h1.ne'
  have n2 := h2.ne'
  have n3 := h3.ne'
  have n4 := h4.ne'
  have a0 : r2 ≠ 0 := fun h => by simp [h] at n3
  simp only [WG12, dWG12, WG13, dWG13, WG23, dWG23, DGDR1, D2GDR0R1]
  refine HasDerivAt.congr_deriv (by hd) ?_
  all_goals first | ring1 | (field_simp; done) | (field_simp; ring1)

theorem DGDR1_d1 (t p r0 r1 r2 : ℝ) (h0 : 0 < r0 + r2) (h1 : 0 < r1) (h2 : 0 < 1 - r0 - r1 - r2) (h3 : 0 < r2 / 2) (h4 : 0 < 1 - r2) :
    HasDerivAt (fun r1 => DGDR1 t p r0 r1 r2 (r0 + r2) r1 (1 - r0 - r1 - r2) (r2 / 2) (1 - r2)) (D2GDR1R1 t p r0 r1 r2 (r0 + r2) r1 (1 - r0 - r1 - r2) (r2 / 2) (1 - r2)) r1 := by
  have n0 := h0.ne'
  have n1 := h1.ne'
  have n2 := h2.ne'
  have n3 := h3.ne'
  have n4 := h4.ne'
  have a0 : r2 ≠ 0 := fun h => by simp [h] at n3
  simp only [WG12, dWG12, WG13, dWG13, WG23, dWG23, DGDR1, D2GDR1R1]
  refine HasDerivAt.congr_deriv (by hd) ?_
  all_goals first | ring1 | (field_simp; done) | (field_simp; ring1)

theorem DGDR1_d2 (t p r0 r1 r2 : ℝ) (h0 : 0 < r0 + r2) (h1 : 0 < r1) (h2 : 0 < 1 - r0 - r1 - r2) (h3 : 0 < r2 / 2) (h4 : 0 < 1 - r2) :
    HasDerivAt (fun r2 => DGDR1 t p r0 r1 r2 (r0 + r2) r1 (1 - r0 - r1 - r2) (r2 / 2) (1 - r2)) (D2GDR1R2 t p r0 r1 r2 (r0 + r2) r1 (1 - r0 - r1 - r2) (r2 / 2) (1 - r2)) r2 := by
  have n0 := h0.ne'
  have n1 := h1.ne'
  have n2 := h2.ne'
  have n3 := h3.ne'
  have n4 := h4.ne'
  have a0 : r2 ≠ 0 := fun h => by simp [h] at n3
  simp only [WG12, dWG12, WG13, dWG13, WG23, dWG23, DGDR1, D2GDR1R2]
  refine HasDerivAt.congr_deriv (by hd) ?_
  all_goals first | ring1 | (field_simp; done) | (field_simp; ring1)

theorem DGDR1_diff (t p : ℝ) (r : Fin 3 → ℝ) (h0 : 0 < r 0 + r 2) (h1 : 0 < r 1) (h2 : 0 < 1 - r 0 - r 1 - r 2) (h3 : 0 < r 2 / 2) (h4 : 0 < 1 - r 2) :
    DifferentiableAt ℝ (fun r : Fin 3 → ℝ => DGDR1 t p (r 0) (r 1) (r 2) (r 0 + r 2) (r 1) (1 - r 0 - r 1 - r 2) (r 2 / 2) (1 - r 2)) r := by
  have n0 := h0.ne'
  have n1 := h1.ne'
  have n2 := h2.ne'
  have n3 := h3.ne'
  have n4 := h4.ne'
  simp only [WG12, dWG12, WG13, dWG13, WG23, dWG23, DGDR1]
  dd

theorem DGDR2_d0 (t p r0 r1 r2 : ℝ) (h0 : 0 < r0 + r2) (h1 : 0 < r1) (h2 : 0 < 1 - r0 - r1 - r2) (h3 : 0 < r2 / 2) (h4 : 0 < 1 - r2) :
    HasDerivAt (fun r0 => DGDR2 t p r0 r1 r2 (r0 + r2) r1 (1 - r0 - r1 - r2) (r2 / 2) (1 - r2)) (D2GDR0R2 t p r0 r1 r2 (r0 + r2) r1 (1 - r0 - r1 - r2) (r2 / 2) (1 - r2)) r0 := by
  have n0 := h0.ne'
  have n1 := h1.ne'
  have n2 := h2.ne'
  have n3 := h3.ne'
  have n4 := h4.ne'
  have a0 : r2 ≠ 0 := fun h => by simp [h] at n3
  simp only [WG12, dWG12, WG13, dWG13, DGDR2, D2GDR0R2]
  refine HasDerivAt.congr_deriv (by hd) ?_
  all_goals first | ring1 | (field_simp; done) | (field_simp; ring1)

theorem DGDR2_d1 (t p r0 r1 r2 : ℝ) (h0 : 0 < r0 + r2) (h1 : 0 < r1) (h2 : 0 < 1 - r0 - r1 - r2) (h3 : 0 < r2 / 2) (h4 : 0 < 1 - r2) :
    HasDerivAt (fun r1 => DGDR2 t p r0 r1 r2 (r0 + r2) r1 (1 - r0 - r1 - r2) (r2 / 2) (1 - r2)) (D2GDR1R2 t p r0 r1 r2 (r0 + r2) r1 (1 - r0 - r1 - r2) (r2 / 2) (1 - r2)) r1 := by
  have n0 := h0.ne'
  have n1 := h1.ne'
  have n2 := h2.ne'
  have n3 := h3.ne'
  have n4 := h4.ne'
  have a0 : r2 ≠ 0 := fun h => by simp [h] at n3
  simp only [WG12, dWG12, WG13, dWG13, DGDR2, D2GDR1R2]
  refine HasDerivAt.congr_deriv (by hd) ?_
  all_goals first | ring1 | (field_simp; done) | (field_simp; ring1)

theorem DGDR2_d2 (t p r0 r1 r2 : ℝ) (h0 : 0 < r0 + r2) (h1 : 0 < r1) (h2 : 0 < 1 - r0 - r1 - r2) (h3 : 0 < r2 / 2) (h4 : 0 < 1 - r2) :
    HasDerivAt (fun r2 => DGDR2 t p r0 r1 r2 (r0 + r2) r1 (1 - r0 - r1 - r2) (r2 / 2) (1 - r2)) (D2GDR2R2 t p r0 r1 r2 (r0 + r2) r1 (1 - r0 - r1 - r2) (r2 / 2) (1 - r2)) r2 := by
  have n0 := h0.ne'
  have n1 := h1.ne'
  have n2 := h2.ne'
  have n3 := h3.ne'
  have n4 := h4.ne'
  have a0 : r2 ≠ 0 := fun h => by simp [h] at n3
  simp only [WG12, dWG12, WG13, dWG13, DGDR2, D2GDR2R2]
  refine HasDerivAt.congr_deriv (by hd) ?_
  all_goals first | ring1 | (field_simp; done) | (field_simp; ring1)

theorem DGDR2_diff (t p : ℝ) (r : Fin 3 → ℝ) (h0 : 0 < r 0 + r 2) (h1 : 0 < r 1) (h2 : 0 < 1 - r 0 - r 1 - r 2) (h3 : 0 < r 2 / 2) (h4 : 0 < 1 - r 2) :
    DifferentiableAt ℝ (fun r : Fin 3 → ℝ => DGDR2 t p (r 0) (r 1) (r 2) (r 0 + r 2) (r 1) (1 - r 0 - r 1 - r 2) (r 2 / 2) (1 - r 2)) r := by
  have n0 := h0.ne'
  have n1 := h1.ne'
  have n2 := h2.ne'
  have n3 := h3.ne'
  have n4 := h4.ne'
  simp only [WG12, dWG12, WG13, dWG13, DGDR2]
  dd

theorem D2GDR0R0_d0 (t p r0 r1 r2 : ℝ) (h0 : 0 < r0 + r2) (h1 : 0 < r1) (h2 : 0 < 1 - r0 - r1 - r2) (h3 : 0 < r2 / 2) (h4 : 0 < 1 - r2) :
    HasDerivAt (fun r0 => D2GDR0R0 t p r0 r1 r2 (r0 + r2) r1 (1 - r0 - r1 - r2) (r2 / 2) (1 - r2)) (D3GDR0R0R0 t p r0 r1 r2 (r0 + r2) r1 (1 - r0 - r1 - r2) (r2 / 2) (1 - r2)) r0 := by
  have n0 := h0.ne'
  have n1 := h1.ne'
  have n2 := h2.ne'
  have n3 := h3.ne'
  have n4 := h4.ne'
  have a0 : r2 ≠ 0 := fun h => by simp [h] at n3
  simp only [WG12, dWG12, dWG13, dWG23, D2GDR0R0, D3GDR0R0R0]
  refine HasDerivAt.congr_deriv (by hd) ?_
  all_goals first | ring1 | (field_simp; done) | (field_simp; ring1)

theorem D2GDR0R0_d1 (t p r0 r1 r2 : ℝ) (h0 : 0 < r0 + r2) (h1 : 0 < r1) (h2 : 0 < 1 - r0 - r1 - r2) (h3 : 0 < r2 / 2) (h4 : 0 < 1 - r2) :
    HasDerivAt (fun r1 => D2GDR0R0 t p r0 r1 r2 (r0 + r2) r1 (1 - r0 - r1 - r2) (r2 / 2) (1 - r2)) (D3GDR0R0R1 t p r0 r1 r2 (r0 + r2) r1 (1 - r0 - r1 - r2) (r2 / 2) (1 - r2)) r1 := by
  have n0 := h0.ne'
  have n1 := h1.ne'
  have n2 := h2.ne'
  have n3 := h3.ne'
  have n4 := h4.ne'
  have a0 : r2 ≠ 0 := fun h => by simp [h] at n3
  simp only [WG12, dWG12, dWG13, dWG23, D2GDR0R0, D3GDR0R0R1]
  refine HasDerivAt.congr_deriv (by hd) ?_
  all_goals first | ring1 | (field_simp; done) | (field_simp; ring1)

theorem D2GDR0R0_d2 (t p r0 r1 r2 : ℝ) (h0 : 0 < r0 + r2) (h1 : 0 < r1) (h2 : 0 < 1 - r0 - r1 - r2) (h3 : 0 < r2 / 2) (h4 : 0 < 1 - r2) :
    HasDerivAt (fun r2 => D2GDR0R0 t p r0 r1 r2 (r0 + r2) r1 (1 - r0 - r1 - r2) (r2 / 2) (1 - r2)) (D3GDR0R0R2 t p r0 r1 r2 (r0 + r2) r1 (1 - r0 - r1 - r2) (r2 / 2) (1 - r2)) r2 := by
  have n0 := h0.ne'
  have n1 := h1.ne'
  have n2 := h2.ne'
  have n3 := h3.ne'
  have n4 := h4.ne'
  have a0 : r2 ≠ 0 := fun h => by simp [h] at n3
  simp only [WG12, dWG12, dWG13, dWG23, D2GDR0R0, D3GDR0R0R2]
  refine HasDerivAt.congr_deriv (by hd) ?_
  all_goals first | ring1 | (field_simp; done) | (field_simp; ring1)

theorem D2GDR0R0_diff (t p : ℝ) (r : Fin 3 → ℝ) (h0 : 0 < r 0 + r 2) (h1 : 0 < r 1) (h2 : 0 < 1 - r 0 - r 1 - r 2) (h3 : 0 < r 2 / 2) (h4 : 0 < 1 - r 2) :
    DifferentiableAt ℝ (fun r : Fin 3 → ℝ => D2GDR0R0 t p (r 0) (r 1) (r 2) (r 0 + r 2) (r 1) (1 - r 0 - r 1 - r 2) (r 2 / 2) (1 - r 2)) r := by
  have n0 := h0.ne'
  have n1 := h1.ne'
  have n2 := h2.ne'
  have n3 := h3.ne'
  have n4 := h4.ne'
  simp only [WG12, dWG12, dWG13, dWG23, D2GDR0R0]
  dd

theorem D2GDR0R1_d0 (t p r0 r1 r2 : ℝ) (h0 : 0 < r0 + r2) (h1 : 0 < r1) (h2 : 0 < 1 - r0 - r1 - r2) (h3 : 0 < r2 / 2) (h4 : 0 < 1 - r2) :
    HasDerivAt (fun r0 => D2GDR0R1 t p r0 r1 r2 (r0 + r2) r1 (1 - r0 - r1 - r2) (r2 / 2) (1 - r2)) (D3GDR0R0R1 t p r0 r1 r2 (r0 + r2) r1 (1 - r0 - r1 - r2) (r2 / 2) (1 - r2)) r0 := by
  have n0 := h0.ne'
  have n1 := h1.ne'
  have n2 := h2.ne'
  have n3 := h3.ne'
  have n4 := h4.ne'
  have a0 : r2 ≠ 0 := fun h => by simp [h] at n3
  simp only [WG12, dWG12, WG13, dWG13, WG23, dWG23, D2GDR0R1, D3GDR0R0R1]
  refine HasDerivAt.congr_deriv (by hd) ?_
  all_goals first | ring1 | (field_simp; done) | (field_simp; ring1)

theorem D2GDR0R1_d1 (t p r0 r1 r2 : ℝ) (h0 : 0 < r0 + r2) (h1 : 0 < r1) (h2 : 0 < 1 - r0 - r1 - r2) (h3 : 0 < r2 / 2) (h4 : 0 < 1 - r2) :
    HasDerivAt (fun r1 => D2GDR0R1 t p r0 r1 r2 (r0 + r2) r1 (1 - r0 - r1 - r2) (r2 / 2) (1 - r2)) (D3GDR0R1R1 t p r0 r1 r2 (r0 + r2) r1 (1 - r0 - r1 - r2) (r2 / 2) (1 - r2)) r1 := by
  have n0 := h0.ne'
  have n1 := h1.ne'
  have n2 := h2.ne'
  have n3 := h3.ne'
  have n4 := h4.ne'
  have a0 : r2 ≠ 0 := fun h => by simp [h] at n3
  simp only [WG12, dWG12, WG13, dWG13, WG23, dWG23, D2GDR0R1, D3GDR0R1R1]
  refine HasDerivAt.congr_deriv (by hd) ?_
  all_goals first | ring1 | (field_simp; done) | (field_simp; ring1)

theorem D2GDR0R1_d2 (t p r0 r1 r2 : ℝ) (h0 : 0 < r0 + r2) (h1 : 0 < r1) (h2 : 0 < 1 - r0 - r1 - r2) (h3 : 0 < r2 / 2) (h4 : 0 < 1 - r2) :
    HasDerivAt (fun r2 => D2GDR0R1 t p r0 r1 r2 (r0 + r2) r1 (1 - r0 - r1 - r2) (r2 / 2) (1 - r2)) (D3GDR0R1R2 t p r0 r1 r2 (r0 + r2) r1 (1 - r0 - r1 - r2) (r2 / 2) (1 - r2)) r2 := by
  have n0 := h0.ne'
  have n1 := h1.ne'
  have n2 := h2.ne'
  have n3 := h3.ne'
  have n4 := h4.ne'
  have a0 : r2 ≠ 0 := fun h => by simp [h] at n3
  simp only [WG12, dWG12, WG13, dWG13, WG23, dWG23, D2GDR0R1, D3GDR0R1R2]
  refine HasDerivAt.congr_deriv (by hd) ?_
  all_goals first | ring1 | (field_simp; done) | (field_simp; ring1)

theorem D2GDR0R1_diff (t p : ℝ) (r : Fin 3 → ℝ) (h0 : 0 < r 0 + r 2) (h1 : 0 < r 1) (h2 : 0 < 1 - r 0 - r 1 - r 2) (h3 : 0 < r 2 / 2) (h4 : 0 < 1 - r 2) :
    DifferentiableAt ℝ (fun r : Fin 3 → ℝ => D2GDR0R1 t p (r 0) (r 1) (r 2) (r 0 + r 2) (r 1) (1 - r 0 - r 1 - r 2) (r 2 / 2) (1 - r 2)) r := by
  have n0 := h0.ne'
  have n1 := h1.ne'
  have n2 := h2.ne'
  have n3 := h3.ne'
  have n4 := h4.ne'
  simp only [WG12, dWG12, WG13, dWG13, WG23, dWG23, D2GDR0R1]
  dd

theorem D2GDR0R2_d0 (t p r0 r1 r2 : ℝ) (h0 : 0 < r0 + r2) (h1 : 0 < r1) (h2 : 0 < 1 - r0 - r1 - r2) (h3 : 0 < r2 / 2) (h4 : 0 < 1 - r2) :
    HasDerivAt (fun r0 => D2GDR0R2 t p r0 r1 r2 (r0 + r2) r1 (1 - r0 - r1 - r2) (r2 / 2) (1 - r2)) (D3GDR0R0R2 t p r0 r1 r2 (r0 + r2) r1 (1 - r0 - r1 - r2) (r2 / 2) (1 - r2)) r0 := by
  have n0 := h0.ne'
  have n1 := h1.ne'
  have n2 := h2.ne'
  have n3 := h3.ne'
  have n4 := h4.ne'
  have a0 : r2 ≠ 0 := fun h => by simp [h] at n3
  simp only [WG12, dWG12, dWG13, D2GDR0R2, D3GDR0R0R2]
  refine HasDerivAt.congr_deriv (by hd) ?_
  all_goals first | ring1 | (field_simp; done) | (field_simp; ring1)

theorem D2GDR0R2_d1 (t p r0 r1 r2 : ℝ) (h0 : 0 < r0 + r2) (h1 : 0 < r1) (h2 : 0 < 1 - r0 - r1 - r2) (h3 : 0 < r2 / 2) (h4 : 0 < 1 - r2) :
    HasDerivAt (fun r1 => D2GDR0R2 t p r0 r1 r2 (r0 + r2) r1 (1 - r0 - r1 - r2) (r2 / 2) (1 - r2)) (D3GDR0R1R2 t p r0 r1 r2 (r0 + r2) r1 (1 - r0 - r1 - r2) (r2 / 2) (1 - r2)) r1 := by
  have n0 := h0.ne'
  have n1 := h1.ne'
  have n2 := h2.ne'
  have n3 := h3.ne'
  have n4 := h4.ne'
  have a0 : r2 ≠ 0 := fun h => by simp [h] at n3
  simp only [WG12, dWG12, dWG13, D2GDR0R2, D3GDR0R1R2]
  refine HasDerivAt.congr_deriv (by hd) ?_
  all_goals first | ring1 | (field_simp; done) | (field_simp; ring1)

theorem D2GDR0R2_d2 (t p r0 r1 r2 : ℝ) (h0 : 0 < r0 + r2) (h1 : 0 < r1) (h2 : 0 < 1 - r0 - r1 - r2) (h3 : 0 < r2 / 2) (h4 : 0 < 1 - r2) :
    HasDerivAt (fun r2 => D2GDR0R2 t p r0 r1 r2 (r0 + r2) r1 (1 - r0 - r1 - r2) (r2 / 2) (1 - r2)) (D3GDR0R2R2 t p r0 r1 r2 (r0 + r2) r1 (1 - r0 - r1 - r2) (r2 / 2) (1 - r2)) r2 := by
  have n0 := h0.ne'
  have n1 := h1.ne'
  have n2 := h2.ne'
  have n3 := h3.ne'
  have n4 := h4.ne'
  have a0 : r2 ≠ 0 := fun h => by simp [h] at n3
  simp only [WG12, dWG12, dWG13, D2GDR0R2, D3GDR0R2R2]
  refine HasDerivAt.congr_deriv (by hd) ?_
  all_goals first | ring1 | (field_simp; done) | (field_simp; ring1)

theorem D2GDR0R2_diff (t p : ℝ) (r : Fin 3 → ℝ) (h0 : 0 < r 0 + r 2) (h1 : 0 < r 1) (h2 : 0 < 1 - r 0 - r 1 - r 2) (h3 : 0 < r 2 / 2) (h4 : 0 < 1 - r 2) :
    DifferentiableAt ℝ (fun r : Fin 3 → ℝ => D2GDR0R2 t p (r 0) (r 1) (r 2) (r 0 + r 2) (r 1) (1 - r 0 - r 1 - r 2) (r 2 / 2) (1 - r 2)) r := by
  have n0 := h0.ne'
  have n1 := h1.ne'
  have n2 := h2.ne'
  have n3 := h3.ne'
  have n4 := h4.ne'
  simp only [WG12, dWG12, dWG13, D2GDR0R2]
  dd

theorem D2GDR1R1_d0 (t p r0 r1 r2 : ℝ) (h0 : 0 < r0 + r2) (h1 : 0 < r1) (h2 : 0 < 1 - r0 - r1 - r2) (h3 : 0 < r2 / 2) (h4 : 0 < 1 - r2) :
    HasDerivAt (fun r0 => D2GDR1R1 t p r0 r1 r2 (r0 + r2) r1 (1 - r0 - r1 - r2) (r2 / 2) (1 - r2)) (D3GDR0R1R1 t p r0 r1 r2 (r0 + r2) r1 (1 - r0 - r1 - r2) (r2 / 2) (1 - r2)) r0 := by
  have n0 := h0.ne'
  have n1 := h1.ne'
  have n2 := h2.ne'
  have n3 := h3.ne'
  have n4 := h4.ne'
  have a0 : r2 ≠ 0 := fun h => by simp [h] at n3
  simp only [dWG12, WG13, dWG13, dWG23, D2GDR1R1, D3GDR0R1R1]
  refine HasDerivAt.congr_deriv (by hd) ?_
  all_goals first | ring1 | (field_simp; done) | (field_simp; ring1)

theorem D2GDR1R1_d1 (t p r0 r1 r2 : ℝ) (h0 : 0 < r0 + r2) (h1 : 0 < r1) (h2 : 0 < 1 - r0 - r1 - r2) (h3 : 0 < r2 / 2) (h4 : 0 < 1 - r2) :
    HasDerivAt (fun r1 => D2GDR1R1 t p r0 r1 r2 (r0 + r2) r1 (1 - r0 - r1 - r2) (r2 / 2) (1 - r2)) (D3GDR1R1R1 t p r0 r1 r2 (r0 + r2) r1 (1 - r0 - r1 - r2) (r2 / 2) (1 - r2)) r1 := by
  have n0 := h0.ne'
  have n1 := h1.ne'
  have n2 := h2.ne'
  have n3 := h3.ne'
  have n4 := h4.ne'
  have a0 : r2 ≠ 0 := fun h => by simp [h] at n3
  simp only [dWG12, WG13, dWG13, dWG23, D2GDR1R1, D3GDR1R1R1]
  refine HasDerivAt.congr_deriv (by hd) ?_
  all_goals first | ring1 | (field_simp; done) | (field_simp; ring1)

theorem D2GDR1R1_d2 (t p r0 r1 r2 : ℝ) (h0 : 0 < r0 + r2) (h1 : 0 < r1) (h2 : 0 < 1 - r0 - r1 - r2) (h3 : 0 < r2 / 2) (h4 : 0 < 1 - r2) :
    HasDerivAt (fun r2 => D2GDR1R1 t p r0 r1 r2 (r0 + r2) r1 (1 - r0 - r1 - r2) (r2 / 2) (1 - r2)) (D3GDR1R1R2 t p r0 r1 r2 (r0 + r2) r1 (1 - r0 - r1 - r2) (r2 / 2) (1 - r2)) r2 := by
  have n0 := h0.ne'
  have n1 := h1.ne'
  have n2 := h2.ne'
  have n3 := h3.ne'
  have n4 := h4.ne'
  have a0 : r2 ≠ 0 := fun h => by simp [h] at n3
  simp only [dWG12, WG13, dWG13, dWG23, D2GDR1R1, D3GDR1R1R2]
  refine HasDerivAt.congr_deriv (by hd) ?_
  all_goals first | ring1 | (field_simp; done) | (field_simp; ring1)

theorem D2GDR1R1_diff (t p : ℝ) (r : Fin 3 → ℝ) (h0 : 0 < r 0 + r 2) (h1 : 0 < r 1) (h2 : 0 < 1 - r 0 - r 1 - r 2) (h3 : 0 < r 2 / 2) (h4 : 0 < 1 - r 2) :
    DifferentiableAt ℝ (fun r : Fin 3 → ℝ => D2GDR1R1 t p (r 0) (r 1) (r 2) (r 0 + r 2) (r 1) (1 - r 0 - r 1 - r 2) (r 2 / 2) (1 - r 2)) r := by
  have n0 := h0.ne'
  have n1 := h1.ne'
  have n2 := h2.ne'
  have n3 := h3.ne'
  have n4 := h4.ne'
  simp only [dWG12, WG13, dWG13, dWG23, D2GDR1R1]
  dd

theorem D2GDR1R2_d0 (t p r0 r1 r2 : ℝ) (h0 : 0 < r0 + r2) (h1 : 0 < r1) (h2 : 0 < 1 - r0 - r1 - r2) (h3 : 0 < r2 / 2) (h4 : 0 < 1 - r2) :
    HasDerivAt (fun r0 => D2GDR1R2 t p r0 r1 r2 (r0 + r2) r1 (1 - r0 - r1 - r2) (r2 / 2) (1 - r2)) (D3GDR0R1R2 t p r0 r1 r2 (r0 + r2) r1 (1 - r0 - r1 - r2) (r2 / 2) (1 - r2)) r0 := by
  have n0 := h0.ne'
  have n1 := h1.ne'
  have n2 := h2.ne'
  have n3 := h3.ne'
  have n4 := h4.ne'
  have a0 : r2 ≠ 0 := fun h => by simp [h] at n3
  simp only [dWG12, WG13, dWG13, D2GDR1R2, D3GDR0R1R2]
  refine HasDerivAt.congr_deriv (by hd) ?_
  all_goals first | ring1 | (field_simp; done) | (field_simp; ring1)

theorem D2GDR1R2_d1 (t p r0 r1 r2 : ℝ) (h0 : 0 < r0 + r2) (h1 : 0 < r1) (h2 : 0 < 1 - r0 - r1 - r2) (h3 : 0 < r2 / 2) (h4 : 0 < 1 - r2) :
    HasDerivAt (fun r1 => D2GDR1R2 t p r0 r1 r2 (r0 + r2) r1 (1 - r0 - r1 - r2) (r2 / 2) (1 - r2)) (D3GDR1R1R2 t p r0 r1 r2 (r0 + r2) r1 (1 - r0 - r1 - r2) (r2 / 2) (1 - r2)) r1 := by
  have n0 := h0.ne'
  have n1 := h1.ne'
  have n2 := h2.ne'
  have n3 := h3.ne'
  have n4 := h4.ne'
  have a0 : r2 ≠ 0 := fun h => by simp [h] at n3
  simp only [dWG12, WG13, dWG13, D2GDR1R2, D3GDR1R1R2]
  refine HasDerivAt.congr_deriv (by hd) ?_
  all_goals first | ring1 | (field_simp; done) | (field_simp; ring1)

theorem D2GDR1R2_d2 (t p r0 r1 r2 : ℝ) (h0 : 0 < r0 + r2) (h1 : 0 < r1) (h2 : 0 < 1 - r0 - r1 - r2) (h3 : 0 < r2 / 2) (h4 : 0 < 1 - r2) :
    HasDerivAt (fun r2 => D2GDR1R2 t p r0 r1 r2 (r0 + r2) r1 (1 - r0 - r1 - r2) (r2 / 2) (1 - r2)) (D3GDR1R2R2 t p r0 r1 r2 (r0 + r2) r1 (1 - r0 - r1 - r2) (r2 / 2) (1 - r2)) r2 := by
  have n0 := h0.ne'
  have n1 := h1.ne'
  have n2 := h2.ne'
  have n3 := h3.ne'
  have n4 := h4.ne'
  have a0 : r2 ≠ 0 := fun h => by simp [h] at n3
  simp only [dWG12, WG13, dWG13, D2GDR1R2, D3GDR1R2R2]
  refine HasDerivAt.congr_deriv (by hd) ?_
  all_goals first | ring1 | (field_simp; done) | (field_simp; ring1)

theorem D2GDR1R2_diff (t p : ℝ) (r : Fin 3 → ℝ) (h0 : 0 < r 0 + r 2) (h1 : 0 < r 1) (h2 : 0 < 1 - r 0 - r 1 - r 2) (h3 : 0 < r 2 / 2) (h4 : 0 < 1 - r 2) :
    DifferentiableAt ℝ (fun r : Fin 3 → ℝ => D2GDR1R2 t p (r 0) (r 1) (r 2) (r 0 + r 2) (r 1) (1 - r 0 - r 1 - r 2) (r 2 / 2) (1 - r 2)) r := by
  have n0 := h0.ne'
  have n1 := h1.ne'
  have n2 := h2.ne'
  have n3 := h3.ne'
  have n4 := h4.ne'
  simp only [dWG12, WG13, dWG13, D2GDR1R2]
  dd

theorem D2GDR2R2_d0 (t p r0 r1 r2 : ℝ) (h0 : 0 < r0 + r2) (h1 : 0 < r1) (h2 : 0 < 1 - r0 - r1 - r2) (h3 : 0 < r2 / 2) (h4 : 0 < 1 - r2) :
    HasDerivAt (fun r0 => D2GDR2R2 t p r0 r1 r2 (r0 + r2) r1 (1 - r0 - r1 - r2) (r2 / 2) (1 - r2)) (D3GDR0R2R2 t p r0 r1 r2 (r0 + r2) r1 (1 - r0 - r1 - r2) (r2 / 2) (1 - r2)) r0 := by
  have n0 := h0.ne'
  have n1 := h1.ne'
  have n2 := h2.ne'
  have n3 := h3.ne'
  have n4 := h4.ne'
  have a0 : r2 ≠ 0 := fun h => by simp [h] at n3
  simp only [dWG12, dWG13, D2GDR2R2, D3GDR0R2R2]
  refine HasDerivAt.congr_deriv (by hd) ?_
  all_goals first | ring1 | (field_simp; done) | (field_simp; ring1)

theorem D2GDR2R2_d1 (t p r0 r1 r2 : ℝ) (h0 : 0 < r0 + r2) (h1 : 0 < r1) (h2 : 0 < 1 - r0 - r1 - r2) (h3 : 0 < r2 / 2) (h4 : 0 < 1 - r2) :
    HasDerivAt (fun r1 => D2GDR2R2 t p r0 r1 r2 (r0 + r2) r1 (1 - r0 - r1 - r2) (r2 / 2) (1 - r2)) (D3GDR1R2R2 t p r0 r1 r2 (r0 + r2) r1 (1 - r0 - r1 - r2) (r2 / 2) (1 - r2)) r1 := by
  have n0 := h0.ne'
  have n1 := h1.ne'
  have n2 := h2.ne'
  have n3 := h3.ne'
  have n4 := h4.ne'
  have a0 : r2 ≠ 0 := fun h => by simp [h] at n3
  simp only [dWG12, dWG13, D2GDR2R2, D3GDR1R2R2]
  refine HasDerivAt.congr_deriv (by hd) ?_
  all_goals first | ring1 | (field_simp; done) | (field_simp; ring1)

theorem D2GDR2R2_d2 (t p r0 r1 r2 : ℝ) (h0 : 0 < r0 + r2) (h1 : 0 < r1) (h2 : 0 < 1 - r0 - r1 - r2) (h3 : 0 < r2 / 2) (h4 : 0 < 1 - r2) :
    HasDerivAt (fun r2 => D2GDR2R2 t p r0 r1 r2 (r0 + r2) r1 (1 - r0 - r1 - r2) (r2 / 2) (1 - r2)) (D3GDR2R2R2 t p r0 r1 r2 (r0 + r2) r1 (1 - r0 - r1 - r2) (r2 / 2) (1 - r2)) r2 := by
  have n0 := h0.ne'
  have n1 := h1.ne'
  have n2 := h2.ne'
  have n3 := h3.ne'
  have n4 := h4.ne'
  have a0 : r2 ≠ 0 := fun h => by simp [h] at n3
  simp only [dWG12, dWG13, D2GDR2R2, D3GDR2R2R2]
  refine HasDerivAt.congr_deriv (by hd) ?_
  all_goals first | ring1 | (field_simp; done) | (field_simp; ring1)

theorem D2GDR2R2_diff (t p : ℝ) (r : Fin 3 → ℝ) (h0 : 0 < r 0 + r 2) (h1 : 0 < r 1) (h2 : 0 < 1 - r 0 - r 1 - r 2) (h3 : 0 < r 2 / 2) (h4 : 0 < 1 - r 2) :
    DifferentiableAt ℝ (fun r : Fin 3 → ℝ => D2GDR2R2 t p (r 0) (r 1) (r 2) (r 0 + r 2) (r 1) (1 - r 0 - r 1 - r 2) (r 2 / 2) (1 - r 2)) r := by
  have n0 := h0.ne'
  have n1 := h1.ne'
  have n2 := h2.ne'
  have n3 := h3.ne'
  have n4 := h4.ne'
  simp only [dWG12, dWG13, D2GDR2R2]
  dd

theorem S_d0 (t p r0 r1 r2 : ℝ) (h0 : 0 < r0 + r2) (h1 : 0 < r1) (h2 : 0 < 1 - r0 - r1 - r2) (h3 : 0 < r2 / 2) (h4 : 0 < 1 - r2) :
    HasDerivAt (fun r0 => S t p r0 r1 r2 (r0 + r2) r1 (1 - r0 - r1 - r2) (r2 / 2) (1 - r2)) (-(D2GDR0DT t p r0 r1 r2 (r0 + r2) r1 (1 - r0 - r1 - r2) (r2 / 2) (1 - r2))) r0 := by
  have n0 := h0.ne'
  have n1 := h1.ne'
  have n2 := h2.ne'
  have n3 := h3.ne'
  have n4 := h4.ne'
  have a0 : r2 ≠ 0 := fun h => by simp [h] at n3
  simp only [S, D2GDR0DT]
  refine HasDerivAt.congr_deriv (by hd) ?_
  all_goals first | ring1 | (field_simp; done) | (field_simp; ring1)

theorem S_d1 (t p r0 r1 r2 : ℝ) (h0 : 0 < r0 + r2) (h1 : 0 < r1) (h2 : 0 < 1 - r0 - r1 - r2) (h3 : 0 < r2 / 2) (h4 : 0 < 1 - r2) :
    HasDerivAt (fun r1 => S t p r0 r1 r2 (r0 + r2) r1 (1 - r0 - r1 - r2) (r2 / 2) (1 - r2)) (-(D2GDR1DT t p r0 r1 r2 (r0 + r2) r1 (1 - r0 - r1 - r2) (r2 / 2) (1 - r2))) r1 := by
  have n0 := h0.ne'
  have n1 := h1.ne'
  have n2 := h2.ne'
  have n3 := h3.ne'
  have n4 := h4.ne'
  have a0 : r2 ≠ 0 := fun h => by simp [h] at n3
  simp only [S, D2GDR1DT]
  refine HasDerivAt.congr_deriv (by hd) ?_
  all_goals first | ring1 | (field_simp; done) | (field_simp; ring1)

theorem S_d2 (t p r0 r1 r2 : ℝ) (h0 : 0 < r0 + r2) (h1 : 0 < r1) (h2 : 0 < 1 - r0 - r1 - r2) (h3 : 0 < r2 / 2) (h4 : 0 < 1 - r2) :
    HasDerivAt (fun r2 => S t p r0 r1 r2 (r0 + r2) r1 (1 - r0 - r1 - r2) (r2 / 2) (1 - r2)) (-(D2GDR2DT t p r0 r1 r2 (r0 + r2) r1 (1 - r0 - r1 - r2) (r2 / 2) (1 - r2))) r2 := by
  have n0 := h0.ne'
  have n1 := h1.ne'
  have n2 := h2.ne'
  have n3 := h3.ne'
  have n4 := h4.ne'
  have a0 : r2 ≠ 0 := fun h => by simp [h] at n3
  simp only [S, D2GDR2DT]
  refine HasDerivAt.congr_deriv (by hd) ?_
  all_goals first | ring1 | (field_simp; done) | (field_simp; ring1)

theorem S_diff (t p : ℝ) (r : Fin 3 → ℝ) (h0 : 0 < r 0 + r 2) (h1 : 0 < r 1) (h2 : 0 < 1 - r 0 - r 1 - r 2) (h3 : 0 < r 2 / 2) (h4 : 0 < 1 - r 2) :
    DifferentiableAt ℝ (fun r : Fin 3 → ℝ => S t p (r 0) (r 1) (r 2) (r 0 + r 2) (r 1) (1 - r 0 - r 1 - r 2) (r 2 / 2) (1 - r 2)) r := by
  have n0 := h0.ne'
  have n1 := h1.ne'
  have n2 := h2.ne'
  have n3 := h3.ne'
  have n4 := h4.ne'
  simp only [S]
  dd

theorem D2GDR0DT_d0 (t p r0 r1 r2 : ℝ) (h0 : 0 < r0 + r2) (h1 : 0 < r1) (h2 : 0 < 1 - r0 - r1 - r2) (h3 : 0 < r2 / 2) (h4 : 0 < 1 - r2) :
    HasDerivAt (fun r0 => D2GDR0DT t p r0 r1 r2 (r0 + r2) r1 (1 - r0 - r1 - r2) (r2 / 2) (1 - r2)) (D3GDR0R0DT t p r0 r1 r2 (r0 + r2) r1 (1 - r0 - r1 - r2) (r2 / 2) (1 - r2)) r0 := by
  have n0 := h0.ne'
  have n1 := h1.ne'
  have n2 := h2.ne'
  have n3 := h3.ne'
  have n4 := h4.ne'
  have a0 : r2 ≠ 0 := fun h => by simp [h] at n3
  simp only [D2GDR0DT, D3GDR0R0DT]
  refine HasDerivAt.congr_deriv (by hd) ?_
  all_goals first | ring1 | (field_simp; done) | (field_simp; ring1)

theorem D2GDR0DT_d1 (t p r0 r1 r2 : ℝ) (h0 : 0 < r0 + r2) (h1 : 0 < r1) (h2 : 0 < 1 - r0 - r1 - r2) (h3 : 0 < r2 / 2) (h4 : 0 < 1 - r2) :
    HasDerivAt (fun r1 => D2GDR0DT t p r0 r1 r2 (r0 + r2) r1 (1 - r0 - r1 - r2) (r2 / 2) (1 - r2)) (D3GDR0R1DT t p r0 r1 r2 (r0 + r2) r1 (1 - r0 - r1 - r2) (r2 / 2) (1 - r2)) r1 := by
  have n0 := h0.ne'
  have n1 := h1.ne'
  have n2 := h2.ne'
  have n3 := h3.ne'
  have n4 := h4.ne'
  have a0 : r2 ≠ 0 := fun h => by simp [h] at n3
  simp only [D2GDR0DT, D3GDR0R1DT]
  refine HasDerivAt.congr_deriv (by hd) ?_
  all_goals first | ring1 | (field_simp; done) | (field_simp; ring1)

theorem D2GDR0DT_d2 (t p r0 r1 r2 : ℝ) (h0 : 0 < r0 + r2) (h1 : 0 < r1) (h2 : 0 < 1 - r0 - r1 - r2) (h3 : 0 < r2 / 2) (h4 : 0 < 1 - r2) :
    HasDerivAt (fun r2 => D2GDR0DT t p r0 r1 r2 (r0 + r2) r1 (1 - r0 - r1 - r2) (r2 / 2) (1 - r2)) (D3GDR0R2DT t p r0 r1 r2 (r0 + r2) r1 (1 - r0 - r1 - r2) (r2 / 2) (1 - r2)) r2 := by
  have n0 := h0.ne'
  have n1 := h1.ne'
  have n2 := h2.ne'
  have n3 := h3.ne'
  have n4 := h4.ne'
  have a0 : r2 ≠ 0 := fun h => by simp [h] at n3
  simp only [D2GDR0DT, D3GDR0R2DT]
  refine HasDerivAt.congr_deriv (by hd) ?_
  all_goals first | ring1 | (field_simp; done) | (field_simp; ring1)

theorem D2GDR0DT_diff (t p : ℝ) (r : Fin 3 → ℝ) (h0 : 0 < r 0 + r 2) (h1 : 0 < r 1) (h2 : 0 < 1 - r 0 - r 1 - r 2) (h3 : 0 < r 2 / 2) (h4 : 0 < 1 - r 2) :
    DifferentiableAt ℝ (fun r : Fin 3 → ℝ => D2GDR0DT t p (r 0) (r 1) (r 2) (r 0 + r 2) (r 1) (1 - r 0 - r 1 - r 2) (r 2 / 2) (1 - r 2)) r := by
  have n0 := h0.ne'
  have n1 := h1.ne'
  have n2 := h2.ne'
  have n3 := h3.ne'
  have n4 := h4.ne'
  simp only [D2GDR0DT]
  dd

theorem D2GDR1DT_d0 (t p r0 r1 r2 : ℝ) (h0 : 0 < r0 + r2) (h1 : 0 < r1) (h2 : 0 < 1 - r0 - r1 - r2) (h3 : 0 < r2 / 2) (h4 : 0 < 1 - r2) :
    HasDerivAt (fun r0 => D2GDR1DT t p r0 r1 r2 (r0 + r2) r1 (1 - r0 - r1 - r2) (r2 / 2) (1 - r2)) (D3GDR0R1DT t p r0 r1 r2 (r0 + r2) r1 (1 - r0 - r1 - r2) (r2 / 2) (1 - r2)) r0 := by
  have n0 := h0.ne'
  have n1 := h1.ne'
  have n2 := h2.ne'
  have n3 := h3.ne'
  have n4 := h4.ne'
  have a0 : r2 ≠ 0 := fun h => by simp [h] at n3
  simp only [D2GDR1DT, D3GDR0R1DT]
  refine HasDerivAt.congr_deriv (by hd) ?_
  all_goals first | ring1 | (field_simp; done) | (field_simp; ring1)

theorem D2GDR1DT_d1 (t p r0 r1 r2 : ℝ) (h0 : 0 < r0 + r2) (h1 : 0 < r1) (h2 : 0 < 1 - r0 - r1 - r2) (h3 : 0 < r2 / 2) (h4 : 0 < 1 - r2) :
    HasDerivAt (fun r1 => D2GDR1DT t p r0 r1 r2 (r0 + r2) r1 (1 - r0 - r1 - r2) (r2 / 2) (1 - r2)) (D3GDR1R1DT t p r0 r1 r2 (r0 + r2) r1 (1 - r0 - r1 - r2) (r2 / 2) (1 - r2)) r1 := by
  have n0 := h0.ne'
  have n1 := h1.ne'
  have n2 := h2.ne'
  have n3 := h3.ne'
  have n4 := h4.ne'
  have a0 : r2 ≠ 0 := fun h => by simp [h] at n3
  simp only [D2GDR1DT, D3GDR1R1DT]
  refine HasDerivAt.congr_deriv (by hd) ?_
  all_goals first | ring1 | (field_simp; done) | (field_simp; ring1)

theorem D2GDR1DT_d2 (t p r0 r1 r2 : ℝ) (h0 : 0 < r0 + r2) (h1 : 0 < r1) (h2 : 0 < 1 - r0 - r1 - r2) (h3 : 0 < r2 / 2) (h4 : 0 < 1 - r2) :
    HasDerivAt (fun r2 => D2GDR1DT t p r0 r1 r2 (r0 + r2) r1 (1 - r0 - r1 - r2) (r2 / 2) (1 - r2)) (D3GDR1R2DT t p r0 r1 r2 (r0 + r2) r1 (1 - r0 - r1 - r2) (r2 / 2) (1 - r2)) r2 := by
  have n0 := h0.ne'
  have n1 := h1.ne'
  have n2 := h2.ne'
  have n3 := h3.ne'
  have n4 := h4.ne'
  have a0 : r2 ≠ 0 := fun h => by simp [h] at n3
  simp only [D2GDR1DT, D3GDR1R2DT]
  refine HasDerivAt.congr_deriv (by hd) ?_
  all_goals first | ring1 | (field_simp; done) | (field_simp; ring1)

theorem D2GDR1DT_diff (t p : ℝ) (r : Fin 3 → ℝ) (h0 : 0 < r 0 + r 2) (h1 : 0 < r 1) (h2 : 0 < 1 - r 0 - r 1 - r 2) (h3 : 0 < r 2 / 2) (h4 : 0 < 1 - r 2) :
    DifferentiableAt ℝ (fun r : Fin 3 → ℝ => D2GDR1DT t p (r 0) (r 1) (r 2) (r 0 + r 2) (r 1) (1 - r 0 - r 1 - r 2) (r 2 / 2) (1 - r 2)) r := by
  have n0 := h0.ne'
  have n1 := h1.ne'
  have n2 := h2.ne'
  have n3 := h3.ne'
  have n4 := h4.ne'
  simp only [D2GDR1DT]
  dd

theorem D2GDR2DT_d0 (t p r0 r1 r2 : ℝ) (h0 : 0 < r0 + r2) (h1 : 0 < r1) (h2 : 0 < 1 - r0 - r1 - r2) (h3 : 0 < r2 / 2) (h4 : 0 < 1 - r2) :
    HasDerivAt (fun r0 => D2GDR2DT t p r0 r1 r2 (r0 + r2) r1 (1 - r0 - r1 - r2) (r2 / 2) (1 - r2)) (D3GDR0R2DT t p r0 r1 r2 (r0 + r2) r1 (1 - r0 - r1 - r2) (r2 / 2) (1 - r2)) r0 := by
  have n0 := h0.ne'
  have n1 := h1.ne'
  have n2 := h2.ne'
  have n3 := h3.ne'
  have n4 := h4.ne'
  have a0 : r2 ≠ 0 := fun h => by simp [h] at n3
  simp only [D2GDR2DT, D3GDR0R2DT]
  refine HasDerivAt.congr_deriv (by hd) ?_
  all_goals first | ring1 | (field_simp; done) | (field_simp; ring1)

theorem D2GDR2DT_d1 (t p r0 r1 r2 : ℝ) (h0 : 0 < r0 + r2) (h1 : 0 < r1) (h2 : 0 < 1 - r0 - r1 - r2) (h3 : 0 < r2 / 2) (h4 : 0 < 1 - r2) :
    HasDerivAt (fun r1 => D2GDR2DT t p r0 r1 r2 (r0 + r2) r1 (1 - r0 - r1 - r2) (r2 / 2) (1 - r2)) (D3GDR1R2DT t p r0 r1 r2 (r0 + r2) r1 (1 - r0 - r1 - r2) (r2 / 2) (1 - r2)) r1 := by
  have n0 := h0.ne'
  have n1 := h1.ne'
  have n2 := h2.ne'
  have n3 := h3.ne'
  have n4 := h4.ne'
  have a0 : r2 ≠ 0 := fun h => by simp [h] at n3
  simp only [D2GDR2DT, D3GDR1R2DT]
  refine HasDerivAt.congr_deriv (by hd) ?_
  all_goals first | ring1 | (field_simp; done) | (field_simp; ring1)

theorem D2GDR2DT_d2 (t p r0 r1 r2 : ℝ) (h0 : 0 < r0 + r2) (h1 : 0 < r1) (h2 : 0 < 1 - r0 - r1 - r2) (h3 : 0 < r2 / 2) (h4 : 0 < 1 - r2) :
    HasDerivAt (fun r2 => D2GDR2DT t p r0 r1 r2 (r0 + r2) r1 (1 - r0 - r1 - r2) (r2 / 2) (1 - r2)) (D3GDR2R2DT t p r0 r1 r2 (r0 + r2) r1 (1 - r0 - r1 - r2) (r2 / 2) (1 - r2)) r2 := by
  have n0 := h0.ne'
  have n1 := h1.ne'
  have n2 := h2.ne'
  have n3 := h3.ne'
  have n4 := h4.ne'
  have a0 : r2 ≠ 0 := fun h => by simp [h] at n3
  simp only [D2GDR2DT, D3GDR2R2DT]
  refine HasDerivAt.congr_deriv (by hd) ?_
  all_goals first | ring1 | (field_simp; done) | (field_simp; ring1)

theorem D2GDR2DT_diff (t p : ℝ) (r : Fin 3 → ℝ) (h0 : 0 < r 0 + r 2) (h1 : 0 < r 1) (h2 : 0 < 1 - r 0 - r 1 - r 2) (h3 : 0 < r 2 / 2) (h4 : 0 < 1 - r 2) :
    DifferentiableAt ℝ (fun r : Fin 3 → ℝ => D2GDR2DT t p (r 0) (r 1) (r 2) (r 0 + r 2) (r 1) (1 - r 0 - r 1 - r 2) (r 2 / 2) (1 - r 2)) r := by
  have n0 := h0.ne'
  have n1 := h1.ne'
  have n2 := h2.ne'
  have n3 := h3.ne'
  have n4 := h4.ne'
  simp only [D2GDR2DT]
  dd

theorem DGDP_d0 (t p r0 r1 r2 : ℝ) (h0 : 0 < r0 + r2) (h1 : 0 < r1) (h2 : 0 < 1 - r0 - r1 - r2) (h3 : 0 < r2 / 2) (h4 : 0 < 1 - r2) :
    HasDerivAt (fun r0 => DGDP t p r0 r1 r2 (r0 + r2) r1 (1 - r0 - r1 - r2) (r2 / 2) (1 - r2)) (D2GDR0DP t p r0 r1 r2 (r0 + r2) r1 (1 - r0 - r1 - r2) (r2 / 2) (1 - r2)) r0 := by
  have n0 := h0.ne'
  have n1 := h1.ne'
  have n2 := h2.ne'
  have n3 := h3.ne'
  have n4 := h4.ne'
  have a0 : r2 ≠ 0 := fun h => by simp [h] at n3
  simp only [V, DGDP, D2GDR0DP]
  refine HasDerivAt.congr_deriv (by hd) ?_
  all_goals first | ring1 | (field_simp; done) | (field_simp; ring1)

theorem DGDP_d1 (t p r0 r1 r2 : ℝ) (h0 : 0 < r0 + r2) (h1 : 0 < r1) (h2 : 0 < 1 - r0 - r1 - r2) (h3 : 0 < r2 / 2) (h4 : 0 < 1 - r2) :
    HasDerivAt (fun r1 => DGDP t p r0 r1 r2 (r0 + r2) r1 (1 - r0 - r1 - r2) (r2 / 2) (1 - r2)) (D2GDR1DP t p r0 r1 r2 (r0 + r2) r1 (1 - r0 - r1 - r2) (r2 / 2) (1 - r2)) r1 := by
  have n0 := h0.ne'
  have n1 := h1.ne'
  have n2 := h2.ne'
  have n3 := h3.ne'
  have n4 := h4.ne'
  have a0 : r2 ≠ 0 := fun h => by simp [h] at n3
  simp only [V, DGDP, D2GDR1DP]
  refine HasDerivAt.congr_deriv (by hd) ?_
  all_goals first | ring1 | (field_simp; done) | (field_simp; ring1)

theorem DGDP_d2 (t p r0 r1 r2 : ℝ) (h0 : 0 < r0 + r2) (h1 : 0 < r1) (h2 : 0 < 1 - r0 - r1 - r2) (h3 : 0 < r2 / 2) (h4 : 0 < 1 - r2) :
    HasDerivAt (fun r2 => DGDP t p r0 r1 r2 (r0 + r2) r1 (1 - r0 - r1 - r2) (r2 / 2) (1 - r2)) (D2GDR2DP t p r0 r1 r2 (r0 + r2) r1 (1 - r0 - r1 - r2) (r2 / 2) (1 - r2)) r2 := by
  have n0 := h0.ne'
  have n1 := h1.ne'
  have n2 := h2.ne'
  have n3 := h3.ne'
  have n4 := h4.ne'
  have a0 : r2 ≠ 0 := fun h => by simp [h] at n3
  simp only [V, DGDP, D2GDR2DP]
  refine HasDerivAt.congr_deriv (by hd) ?_
  all_goals first | ring1 | (field_simp; done) | (field_simp; ring1)

theorem DGDP_diff (t p : ℝ) (r : Fin 3 → ℝ) (h0 : 0 < r 0 + r 2) (h1 : 0 < r 1) (h2 : 0 < 1 - r 0 - r 1 - r 2) (h3 : 0 < r 2 / 2) (h4 : 0 < 1 - r 2) :
    DifferentiableAt ℝ (fun r : Fin 3 → ℝ => DGDP t p (r 0) (r 1) (r 2) (r 0 + r 2) (r 1) (1 - r 0 - r 1 - r 2) (r 2 / 2) (1 - r 2)) r := by
  have n0 := h0.ne'
  have n1 := h1.ne'
  have n2 := h2.ne'
  have n3 := h3.ne'
  have n4 := h4.ne'
  simp only [V, DGDP]
  dd

theorem D2GDR0DP_d0 (t p r0 r1 r2 : ℝ) (h0 : 0 < r0 + r2) (h1 : 0 < r1) (h2 : 0 < 1 - r0 - r1 - r2) (h3 : 0 < r2 / 2) (h4 : 0 < 1 - r2) :
    HasDerivAt (fun r0 => D2GDR0DP t p r0 r1 r2 (r0 + r2) r1 (1 - r0 - r1 - r2) (r2 / 2) (1 - r2)) (D3GDR0R0DP t p r0 r1 r2 (r0 + r2) r1 (1 - r0 - r1 - r2) (r2 / 2) (1 - r2)) r0 := by
  have n0 := h0.ne'
  have n1 := h1.ne'
  have n2 := h2.ne'
  have n3 := h3.ne'
  have n4 := h4.ne'
  have a0 : r2 ≠ 0 := fun h => by simp [h] at n3
  simp only [D2GDR0DP, D3GDR0R0DP]
  refine HasDerivAt.congr_deriv (by hd) ?_
  all_goals first | ring1 | (field_simp; done) | (field_simp; ring1)

theorem D2GDR0DP_d1 (t p r0 r1 r2 : ℝ) (h0 : 0 < r0 + r2) (h1 : 0 < r1) (h2 : 0 < 1 - r0 - r1 - r2) (h3 : 0 < r2 / 2) (h4 : 0 < 1 - r2) :
    HasDerivAt (fun r1 => D2GDR0DP t p r0 r1 r2 (r0 + r2) r1 (1 - r0 - r1 - r2) (r2 / 2) (1 - r2)) (D3GDR0R1DP t p r0 r1 r2 (r0 + r2) r1 (1 - r0 - r1 - r2) (r2 / 2) (1 - r2)) r1 := by
  have n0 := h0.ne'
  have n1 := h1.ne'
  have n2 := h2.ne'
  have n3 := h3.ne'
  have n4 := h4.ne'
  have a0 : r2 ≠ 0 := fun h => by simp [h] at n3
  simp only [D2GDR0DP, D3GDR0R1DP]
  refine HasDerivAt.congr_deriv (by hd) ?_
  all_goals first | ring1 | (field_simp; done) | (field_simp; ring1)

theorem D2GDR0DP_d2 (t p r0 r1 r2 : ℝ) (h0 : 0 < r0 + r2) (h1 : 0 < r1) (h2 : 0 < 1 - r0 - r1 - r2) (h3 : 0 < r2 / 2) (h4 : 0 < 1 - r2) :
    HasDerivAt (fun r2 => D2GDR0DP t p r0 r1 r2 (r0 + r2) r1 (1 - r0 - r1 - r2) (r2 / 2) (1 - r2)) (D3GDR0R2DP t p r0 r1 r2 (r0 + r2) r1 (1 - r0 - r1 - r2) (r2 / 2) (1 - r2)) r2 := by
  have n0 := h0.ne'
  have n1 := h1.ne'
  have n2 := h2.ne'
  have n3 := h3.ne'
  have n4 := h4.ne'
  have a0 : r2 ≠ 0 := fun h => by simp [h] at n3
  simp only [D2GDR0DP, D3GDR0R2DP]
  refine HasDerivAt.congr_deriv (by hd) ?_
  all_goals first | ring1 | (field_simp; done) | (field_simp; ring1)

theorem D2GDR0DP_diff (t p : ℝ) (r : Fin 3 → ℝ) (h0 : 0 < r 0 + r 2) (h1 : 0 < r 1) (h2 : 0 < 1 - r 0 - r 1 - r 2) (h3 : 0 < r 2 / 2) (h4 : 0 < 1 - r 2) :
    DifferentiableAt ℝ (fun r : Fin 3 → ℝ => D2GDR0DP t p (r 0) (r 1) (r 2) (r 0 + r 2) (r 1) (1 - r 0 - r 1 - r 2) (r 2 / 2) (1 - r 2)) r := by
  have n0 := h0.ne'
  have n1 := h1.ne'
  have n2 := h2.ne'
  have n3 := h3.ne'
  have n4 := h4.ne'
  simp only [D2GDR0DP]
  dd

theorem D2GDR1DP_d0 (t p r0 r1 r2 : ℝ) (h0 : 0 < r0 + r2) (h1 : 0 < r1) (h2 : 0 < 1 - r0 - r1 - r2) (h3 : 0 < r2 / 2) (h4 : 0 < 1 - r2) :
    HasDerivAt (fun r0 => D2GDR1DP t p r0 r1 r2 (r0 + r2) r1 (1 - r0 - r1 - r2) (r2 / 2) (1 - r2)) (D3GDR0R1DP t p r0 r1 r2 (r0 + r2) r1 (1 - r0 - r1 - r2) (r2 / 2) (1 - r2)) r0 := by
  have n0 := h0.ne'
  have n1 := h1.ne'
  have n2 := h2.ne'
  have n3 := h3.ne'
  have n4 := h4.ne'
  have a0 : r2 ≠ 0 := fun h => by simp [h] at n3
  simp only [D2GDR1DP, D3GDR0R1DP]
  refine HasDerivAt.congr_deriv (by hd) ?_
  all_goals first | ring1 | (field_simp; done) | (field_simp; ring1)

theorem D2GDR1DP_d1 (t p r0 r1 r2 : ℝ) (h0 : 0 < r0 + r2) (h1 : 0 < r1) (h2 : 0 < 1 - r0 - r1 - r2) (h3 : 0 < r2 / 2) (h4 : 0 < 1 - r2) :
    HasDerivAt (fun r1 => D2GDR1DP t p r0 r1 r2 (r0 + r2) r1 (1 - r0 - r1 - r2) (r2 / 2) (1 - r2)) (D3GDR1R1DP t p r0 r1 r2 (r0 + r2) r1 (1 - r0 - r1 - r2) (r2 / 2) (1 - r2)) r1 := by
  have n0 := h0.ne'
  have n1 := h1.ne'
  have n2 := h2.ne'
  have n3 := h3.ne'
  have n4 := h4.ne'
  have a0 : r2 ≠ 0 := fun h => by simp [h] at n3
  simp only [D2GDR1DP, D3GDR1R1DP]
  refine HasDerivAt.congr_deriv (by hd) ?_
  all_goals first | ring1 | (field_simp; done) | (field_simp; ring1)

theorem D2GDR1DP_d2 (t p r0 r1 r2 : ℝ) (h0 : 0 < r0 + r2) (h1 : 0 < r1) (h2 : 0 < 1 - r0 - r1 - r2) (h3 : 0 < r2 / 2) (h4 : 0 < 1 - r2) :
    HasDerivAt (fun r2 => D2GDR1DP t p r0 r1 r2 (r0 + r2) r1 (1 - r0 - r1 - r2) (r2 / 2) (1 - r2)) (D3GDR1R2DP t p r0 r1 r2 (r0 + r2) r1 (1 - r0 - r1 - r2) (r2 / 2) (1 - r2)) r2 := by
  have n0 := h0.ne'
  have n1 := h1.ne'
  have n2 := h2.ne'
  have n3 := h3.ne'
  have n4 := h4.ne'
  have a0 : r2 ≠ 0 := fun h => by simp [h] at n3
  simp only [D2GDR1DP, D3GDR1R2DP]
  refine HasDerivAt.congr_deriv (by hd) ?_
  all_goals first | ring1 | (field_simp; done) | (field_simp; ring1)

theorem D2GDR1DP_diff (t p : ℝ) (r : Fin 3 → ℝ) (h0 : 0 < r 0 + r 2) (h1 : 0 < r 1) (h2 : 0 < 1 - r 0 - r 1 - r 2) (h3 : 0 < r 2 / 2) (h4 : 0 < 1 - r 2) :
    DifferentiableAt ℝ (fun r : Fin 3 → ℝ => D2GDR1DP t p (r 0) (r 1) (r 2) (r 0 + r 2) (r 1) (1 - r 0 - r 1 - r 2) (r 2 / 2) (1 - r 2)) r := by
  have n0 := h0.ne'
  have n1 := h1.ne'
  have n2 := h2.ne'
  have n3 := h3.ne'
  have n4 := h4.ne'
  simp only [D2GDR1DP]
  dd

theorem D2GDR2DP_d0 (t p r0 r1 r2 : ℝ) (h0 : 0 < r0 + r2) (h1 : 0 < r1) (h2 : 0 < 1 - r0 - r1 - r2) (h3 : 0 < r2 / 2) (h4 : 0 < 1 - r2) :
    HasDerivAt (fun r0 => D2GDR2DP t p r0 r1 r2 (r0 + r2) r1 (1 - r0 - r1 - r2) (r2 / 2) (1 - r2)) (D3GDR0R2DP t p r0 r1 r2 (r0 + r2) r1 (1 - r0 - r1 - r2) (r2 / 2) (1 - r2)) r0 := by
  have n0 := h0.ne'
  have n1 := h1.ne'
  have n2 := h2.ne'
  have n3 := h3.ne'
  have n4 := h4.ne'
  have a0 : r2 ≠ 0 := fun h => by simp [h] at n3
  simp only [D2GDR2DP, D3GDR0R2DP]
  refine HasDerivAt.congr_deriv (by hd) ?_
  all_goals first | ring1 | (field_simp; done) | (field_simp; ring1)

theorem D2GDR2DP_d1 (t p r0 r1 r2 : ℝ) (h0 : 0 < r0 + r2) (h1 : 0 < r1) (h2 : 0 < 1 - r0 - r1 - r2) (h3 : 0 < r2 / 2) (h4 : 0 < 1 - r2) :
    HasDerivAt (fun r1 => D2GDR2DP t p r0 r1 r2 (r0 + r2) r1 (1 - r0 - r1 - r2) (r2 / 2) (1 - r2)) (D3GDR1R2DP t p r0 r1 r2 (r0 + r2) r1 (1 - r0 - r1 - r2) (r2 / 2) (1 - r2)) r1 := by
  have n0 := h0.ne'
  have n1 := h1.ne'
  have n2 := h2.ne'
  have n3 := h3.ne'
  have n4 := h4.ne'
  have a0 : r2 ≠ 0 := fun h => by simp [h] at n3
  simp only [D2GDR2DP, D3GDR1R2DP]
  refine HasDerivAt.congr_deriv (by hd) ?_
  all_goals first | ring1 | (field_simp; done) | (field_simp; ring1)

theorem D2GDR2DP_d2 (t p r0 r1 r2 : ℝ) (h0 : 0 < r0 + r2) (h1 : 0 < r1) (h2 : 0 < 1 - r0 - r1 - r2) (h3 : 0 < r2 / 2) (h4 : 0 < 1 - r2) :
    HasDerivAt (fun r2 => D2GDR2DP t p r0 r1 r2 (r0 + r2) r1 (1 - r0 - r1 - r2) (r2 / 2) (1 - r2)) (D3GDR2R2DP t p r0 r1 r2 (r0 + r2) r1 (1 - r0 - r1 - r2) (r2 / 2) (1 - r2)) r2 := by
  have n0 := h0.ne'
  have n1 := h1.ne'
  have n2 := h2.ne'
  have n3 := h3.ne'
  have n4 := h4.ne'
  have a0 : r2 ≠ 0 := fun h => by simp [h] at n3
  simp only [D2GDR2DP, D3GDR2R2DP]
  refine HasDerivAt.congr_deriv (by hd) ?_
  all_goals first | ring1 | (field_simp; done) | (field_simp; ring1)

theorem D2GDR2DP_diff (t p : ℝ) (r : Fin 3 → ℝ) (h0 : 0 < r 0 + r 2) (h1 : 0 < r 1) (h2 : 0 < 1 - r 0 - r 1 - r 2) (h3 : 0 < r 2 / 2) (h4 : 0 < 1 - r 2) :
    DifferentiableAt ℝ (fun r : Fin 3 → ℝ => D2GDR2DP t p (r 0) (r 1) (r 2) (r 0 + r 2) (r 1) (1 - r 0 - r 1 - r 2) (r 2 / 2) (1 - r 2)) r := by
  have n0 := h0.ne'
  have n1 := h1.ne'
  have n2 := h2.ne'
  have n3 := h3.ne'
  have n4 := h4.ne'
  simp only [D2GDR2DP]
  dd

set_option maxHeartbeats 1600000 in
theorem consistent_raw : (ofSites F raw).Consistent (Interior raw) := by
  have posr : ∀ r, Interior raw r → ∀ k, 0 < raw r k := fun r hr k => lt_trans eps_pos (hr k)
  constructor
  · intro t p r hr
    have pos := posr r hr
    refine grad_of_partials (G_diff t p r (pos 0) (pos 1) (pos 2) (pos 3) (pos 4)) fun j => partial_of_update ?_
    fin_cases j
    · exact (G_d0 t p (r 0) (r 1) (r 2) (pos 0) (pos 1) (pos 2) (pos 3) (pos 4))
    · exact (G_d1 t p (r 0) (r 1) (r 2) (pos 0) (pos 1) (pos 2) (pos 3) (pos 4))
    · exact (G_d2 t p (r 0) (r 1) (r 2) (pos 0) (pos 1) (pos 2) (pos 3) (pos 4))
  · intro t p r hr i
    have pos := posr r hr
    fin_cases i
    · skip
      refine grad_of_partials (DGDR0_diff t p r (pos 0) (pos 1) (pos 2) (pos 3) (pos 4)) fun j => partial_of_update ?_
      fin_cases j
      · exact (DGDR0_d0 t p (r 0) (r 1) (r 2) (pos 0) (pos 1) (pos 2) (pos 3) (pos 4))
      · exact (DGDR0_d1 t p (r 0) (r 1) (r 2) (pos 0) (pos 1) (pos 2) (pos 3) (pos 4))
      · exact (DGDR0_d2 t p (r 0) (r 1) (r 2) (pos 0) (pos 1) (pos 2) (pos 3) (pos 4))
    · skip
      refine grad_of_partials (DGDR1_diff t p r (pos 0) (pos 1) (pos 2) (pos 3) (pos 4)) fun j => partial_of_update ?_
      fin_cases j
      · exact (DGDR1_d0 t p (r 0) (r 1) (r 2) (pos 0) (pos 1) (pos 2) (pos 3) (pos 4))
      · exact (DGDR1_d1 t p (r 0) (r 1) (r 2) (pos 0) (pos 1) (pos 2) (pos 3) (pos 4))
      · exact (DGDR1_d2 t p (r 0) (r 1) (r 2) (pos 0) (pos 1) (pos 2) (pos 3) (pos 4))
    · skip
      refine grad_of_partials (DGDR2_diff t p r (pos 0) (pos 1) (pos 2) (pos 3) (pos 4)) fun j => partial_of_update ?_
      fin_cases j
      · exact (DGDR2_d0 t p (r 0) (r 1) (r 2) (pos 0) (pos 1) (pos 2) (pos 3) (pos 4))
      · exact (DGDR2_d1 t p (r 0) (r 1) (r 2) (pos 0) (pos 1) (pos 2) (pos 3) (pos 4))
      · exact (DGDR2_d2 t p (r 0) (r 1) (r 2) (pos 0) (pos 1) (pos 2) (pos 3) (pos 4))
  · intro t p r hr i j
    have pos := posr r hr
    fin_cases i <;> fin_cases j
    · skip
      refine grad_of_partials (D2GDR0R0_diff t p r (pos 0) (pos 1) (pos 2) (pos 3) (pos 4)) fun j => partial_of_update ?_
      fin_cases j
      · exact (D2GDR0R0_d0 t p (r 0) (r 1) (r 2) (pos 0) (pos 1) (pos 2) (pos 3) (pos 4))
      · exact (D2GDR0R0_d1 t p (r 0) (r 1) (r 2) (pos 0) (pos 1) (pos 2) (pos 3) (pos 4))
      · exact (D2GDR0R0_d2 t p (r 0) (r 1) (r 2) (pos 0) (pos 1) (pos 2) (pos 3) (pos 4))
    · skip
      refine grad_of_partials (D2GDR0R1_diff t p r (pos 0) (pos 1) (pos 2) (pos 3) (pos 4)) fun j => partial_of_update ?_
      fin_cases j
      · exact (D2GDR0R1_d0 t p (r 0) (r 1) (r 2) (pos 0) (pos 1) (pos 2) (pos 3) (pos 4))
      · exact (D2GDR0R1_d1 t p (r 0) (r 1) (r 2) (pos 0) (pos 1) (pos 2) (pos 3) (pos 4))
      · exact (D2GDR0R1_d2 t p (r 0) (r 1) (r 2) (pos 0) (pos 1) (pos 2) (pos 3) (pos 4))
    · skip
      refine grad_of_partials (D2GDR0R2_diff t p r (pos 0) (pos 1) (pos 2) (pos 3) (pos 4)) fun j => partial_of_update ?_
      fin_cases j
      · exact (D2GDR0R2_d0 t p (r 0) (r 1) (r 2) (pos 0) (pos 1) (pos 2) (pos 3) (pos 4))
      · exact (D2GDR0R2_d1 t p (r 0) (r 1) (r 2) (pos 0) (pos 1) (pos 2) (pos 3) (pos 4))
      · exact (D2GDR0R2_d2 t p (r 0) (r 1) (r 2) (pos 0) (pos 1) (pos 2) (pos 3) (pos 4))
    · skip
      refine grad_of_partials (D2GDR0R1_diff t p r (pos 0) (pos 1) (pos 2) (pos 3) (pos 4)) fun j => partial_of_update ?_
      fin_cases j
      · exact (D2GDR0R1_d0 t p (r 0) (r 1) (r 2) (pos 0) (pos 1) (pos 2) (pos 3) (pos 4))
      · exact (D2GDR0R1_d1 t p (r 0) (r 1) (r 2) (pos 0) (pos 1) (pos 2) (pos 3) (pos 4))
      · exact (D2GDR0R1_d2 t p (r 0) (r 1) (r 2) (pos 0) (pos 1) (pos 2) (pos 3) (pos 4))
    · skip
      refine grad_of_partials (D2GDR1R1_diff t p r (pos 0) (pos 1) (pos 2) (pos 3) (pos 4)) fun j => partial_of_update ?_
      fin_cases j
      · exact (D2GDR1R1_d0 t p (r 0) (r 1) (r 2) (pos 0) (pos 1) (pos 2) (pos 3) (pos 4))
      · exact (D2GDR1R1_d1 t p (r 0) (r 1) (r 2) (pos 0) (pos 1) (pos 2) (pos 3) (pos 4))
      · exact (D2GDR1R1_d2 t p (r 0) (r 1) (r 2) (pos 0) (pos 1) (pos 2) (pos 3) (pos 4))
    · skip
      refine grad_of_partials (D2GDR1R2_diff t p r (pos 0) (pos 1) (pos 2) (pos 3) (pos 4)) fun j => partial_of_update ?_
      fin_cases j
      · exact (D2GDR1R2_d0 t p (r 0) (r 1) (r 2) (pos 0) (pos 1) (pos 2) (pos 3) (pos 4))
      · exact (D2GDR1R2_d1 t p (r 0) (r 1) (r 2) (pos 0) (pos 1) (pos 2) (pos 3) (pos 4))
      · exact (D2GDR1R2_d2 t p (r 0) (r 1) (r 2) (pos 0) (pos 1) (pos 2) (pos 3) (pos 4))
    · skip
      refine grad_of_partials (D2GDR0R2_diff t p r (pos 0) (pos 1) (pos 2) (pos 3) (pos 4)) fun j => partial_of_update ?_
      fin_cases j
      · exact (D2GDR0R2_d0 t p (r 0) (r 1) (r 2) (pos 0) (pos 1) (pos 2) (pos 3) (pos 4))
      · exact (D2GDR0R2_d1 t p (r 0) (r 1) (r 2) (pos 0) (pos 1) (pos 2) (pos 3) (pos 4))
      · exact (D2GDR0R2_d2 t p (r 0) (r 1) (r 2) (pos 0) (pos 1) (pos 2) (pos 3) (pos 4))
    · skip
      refine grad_of_partials (D2GDR1R2_diff t p r (pos 0) (pos 1) (pos 2) (pos 3) (pos 4)) fun j => partial_of_update ?_
      fin_cases j
      · exact (D2GDR1R2_d0 t p (r 0) (r 1) (r 2) (pos 0) (pos 1) (pos 2) (pos 3) (pos 4))
      · exact (D2GDR1R2_d1 t p (r 0) (r 1) (r 2) (pos 0) (pos 1) (pos 2) (pos 3) (pos 4))
      · exact (D2GDR1R2_d2 t p (r 0) (r 1) (r 2) (pos 0) (pos 1) (pos 2) (pos 3) (pos 4))
    · skip
      refine grad_of_partials (D2GDR2R2_diff t p r (pos 0) (pos 1) (pos 2) (pos 3) (pos 4)) fun j => partial_of_update ?_
      fin_cases j
      · exact (D2GDR2R2_d0 t p (r 0) (r 1) (r 2) (pos 0) (pos 1) (pos 2) (pos 3) (pos 4))
      · exact (D2GDR2R2_d1 t p (r 0) (r 1) (r 2) (pos 0) (pos 1) (pos 2) (pos 3) (pos 4))
      · exact (D2GDR2R2_d2 t p (r 0) (r 1) (r 2) (pos 0) (pos 1) (pos 2) (pos 3) (pos 4))
  · intro t p r hr
    simp only [ofSites, F, WG12, dWG12, WG13, dWG13, WG23, dWG23, G, S]
    refine HasDerivAt.congr_deriv (by hd) ?_
    ring
  · intro t p r hr; rfl
  · intro t p r hr
    have pos := posr r hr
    refine grad_of_partials (S_diff t p r (pos 0) (pos 1) (pos 2) (pos 3) (pos 4)) fun j => partial_of_update ?_
    fin_cases j
    · exact S_d0 t p (r 0) (r 1) (r 2) (pos 0) (pos 1) (pos 2) (pos 3) (pos 4)
    · exact S_d1 t p (r 0) (r 1) (r 2) (pos 0) (pos 1) (pos 2) (pos 3) (pos 4)
    · exact S_d2 t p (r 0) (r 1) (r 2) (pos 0) (pos 1) (pos 2) (pos 3) (pos 4)
  · intro t p r hr i
    have pos := posr r hr
    fin_cases i
    · skip
      refine grad_of_partials ((D2GDR0DT_diff t p r (pos 0) (pos 1) (pos 2) (pos 3) (pos 4)).fun_neg) fun j => partial_of_update ?_
      fin_cases j
      · exact ((D2GDR0DT_d0 t p (r 0) (r 1) (r 2) (pos 0) (pos 1) (pos 2) (pos 3) (pos 4))).fun_neg
      · exact ((D2GDR0DT_d1 t p (r 0) (r 1) (r 2) (pos 0) (pos 1) (pos 2) (pos 3) (pos 4))).fun_neg
      · exact ((D2GDR0DT_d2 t p (r 0) (r 1) (r 2) (pos 0) (pos 1) (pos 2) (pos 3) (pos 4))).fun_neg
    · skip
      refine grad_of_partials ((D2GDR1DT_diff t p r (pos 0) (pos 1) (pos 2) (pos 3) (pos 4)).fun_neg) fun j => partial_of_update ?_
      fin_cases j
      · exact ((D2GDR1DT_d0 t p (r 0) (r 1) (r 2) (pos 0) (pos 1) (pos 2) (pos 3) (pos 4))).fun_neg
      · exact ((D2GDR1DT_d1 t p (r 0) (r 1) (r 2) (pos 0) (pos 1) (pos 2) (pos 3) (pos 4))).fun_neg
      · exact ((D2GDR1DT_d2 t p (r 0) (r 1) (r 2) (pos 0) (pos 1) (pos 2) (pos 3) (pos 4))).fun_neg
    · skip
      refine grad_of_partials ((D2GDR2DT_diff t p r (pos 0) (pos 1) (pos 2) (pos 3) (pos 4)).fun_neg) fun j => partial_of_update ?_
      fin_cases j
      · exact ((D2GDR2DT_d0 t p (r 0) (r 1) (r 2) (pos 0) (pos 1) (pos 2) (pos 3) (pos 4))).fun_neg
      · exact ((D2GDR2DT_d1 t p (r 0) (r 1) (r 2) (pos 0) (pos 1) (pos 2) (pos 3) (pos 4))).fun_neg
      · exact ((D2GDR2DT_d2 t p (r 0) (r 1) (r 2) (pos 0) (pos 1) (pos 2) (pos 3) (pos 4))).fun_neg
  · intro t p r hr
    simp only [ofSites, F, WG12, dWG12, WG13, dWG13, WG23, dWG23, G, S, D2GDT2]
    refine HasDerivAt.congr_deriv (by hd) ?_
    ring
  · intro t p r hr
    simp only [ofSites, F, D2GDT2, D3GDT3]
    refine HasDerivAt.congr_deriv (by hd) ?_
    ring
  · intro t p r hr
    refine grad_of_partials ?_ fun j => partial_of_update ?_
    · simp only [ofSites, F, D2GDT2]; dd
    · fin_cases j
      · change HasDerivAt (fun _ : ℝ => -t * (0 : ℝ)) (-t * (0 : ℝ)) _
        exact (hasDerivAt_const _ _).congr_deriv (by ring)
      · change HasDerivAt (fun _ : ℝ => -t * (0 : ℝ)) (-t * (0 : ℝ)) _
        exact (hasDerivAt_const _ _).congr_deriv (by ring)
      · change HasDerivAt (fun _ : ℝ => -t * (0 : ℝ)) (-t * (0 : ℝ)) _
        exact (hasDerivAt_const _ _).congr_deriv (by ring)
  · intro t p r hr
    simp only [ofSites, F, WG12, dWG12, WG13, dWG13, WG23, dWG23, G, V, DGDP]
    refine HasDerivAt.congr_deriv (by hd) ?_
    ring
  · intro t p r hr
    have pos := posr r hr
    refine grad_of_partials (DGDP_diff t p r (pos 0) (pos 1) (pos 2) (pos 3) (pos 4)) fun j => partial_of_update ?_
    fin_cases j
    · exact (DGDP_d0 t p (r 0) (r 1) (r 2) (pos 0) (pos 1) (pos 2) (pos 3) (pos 4))
    · exact (DGDP_d1 t p (r 0) (r 1) (r 2) (pos 0) (pos 1) (pos 2) (pos 3) (pos 4))
    · exact (DGDP_d2 t p (r 0) (r 1) (r 2) (pos 0) (pos 1) (pos 2) (pos 3) (pos 4))
  · intro t p r hr i
    have pos := posr r hr
    fin_cases i
    · skip
      refine grad_of_partials (D2GDR0DP_diff t p r (pos 0) (pos 1) (pos 2) (pos 3) (pos 4)) fun j => partial_of_update ?_
      fin_cases j
      · exact (D2GDR0DP_d0 t p (r 0) (r 1) (r 2) (pos 0) (pos 1) (pos 2) (pos 3) (pos 4))
      · exact (D2GDR0DP_d1 t p (r 0) (r 1) (r 2) (pos 0) (pos 1) (pos 2) (pos 3) (pos 4))
      · exact (D2GDR0DP_d2 t p (r 0) (r 1) (r 2) (pos 0) (pos 1) (pos 2) (pos 3) (pos 4))
    · skip
      refine grad_of_partials (D2GDR1DP_diff t p r (pos 0) (pos 1) (pos 2) (pos 3) (pos 4)) fun j => partial_of_update ?_
      fin_cases j
      · exact (D2GDR1DP_d0 t p (r 0) (r 1) (r 2) (pos 0) (pos 1) (pos 2) (pos 3) (pos 4))
      · exact (D2GDR1DP_d1 t p (r 0) (r 1) (r 2) (pos 0) (pos 1) (pos 2) (pos 3) (pos 4))
      · exact (D2GDR1DP_d2 t p (r 0) (r 1) (r 2) (pos 0) (pos 1) (pos 2) (pos 3) (pos 4))
    · skip
      refine grad_of_partials (D2GDR2DP_diff t p r (pos 0) (pos 1) (pos 2) (pos 3) (pos 4)) fun j => partial_of_update ?_
      fin_cases j
      · exact (D2GDR2DP_d0 t p (r 0) (r 1) (r 2) (pos 0) (pos 1) (pos 2) (pos 3) (pos 4))
      · exact (D2GDR2DP_d1 t p (r 0) (r 1) (r 2) (pos 0) (pos 1) (pos 2) (pos 3) (pos 4))
      · exact (D2GDR2DP_d2 t p (r 0) (r 1) (r 2) (pos 0) (pos 1) (pos 2) (pos 3) (pos 4))
  · intro t p r hr
    simp only [ofSites, F, V, DGDP, D2GDTDP]
    refine HasDerivAt.congr_deriv (by hd) ?_
    ring
  · intro t p r hr
    simp only [ofSites, F, V, DGDP, D2GDP2]
    refine HasDerivAt.congr_deriv (by hd) ?_
    ring
  · intro t p r hr
    simp only [ofSites, F, D2GDTDP, D3GDT2DP]
    refine HasDerivAt.congr_deriv (by hd) ?_
    ring
  · intro t p r hr
    simp only [ofSites, F, D2GDTDP, D3GDTDP2]
    refine HasDerivAt.congr_deriv (by hd) ?_
    ring
  · intro t p r hr
    simp only [ofSites, F, D2GDP2, D3GDP3]
    refine HasDerivAt.congr_deriv (by hd) ?_
    ring
  · intro t p r hr i
    fin_cases i
    · change HasDerivAt (fun t => D2GDR0DP t p (r 0) (r 1) (r 2) (raw r 0) (raw r 1) (raw r 2) (raw r 3) (raw r 4)) (D3GDR0DTDP t p (r 0) (r 1) (r 2) (raw r 0) (raw r 1) (raw r 2) (raw r 3) (raw r 4)) t
      simp only [D2GDR0DP, D3GDR0DTDP]
      refine HasDerivAt.congr_deriv (by hd) ?_
      ring
    · change HasDerivAt (fun t => D2GDR1DP t p (r 0) (r 1) (r 2) (raw r 0) (raw r 1) (raw r 2) (raw r 3) (raw r 4)) (D3GDR1DTDP t p (r 0) (r 1) (r 2) (raw r 0) (raw r 1) (raw r 2) (raw r 3) (raw r 4)) t
      simp only [D2GDR1DP, D3GDR1DTDP]
      refine HasDerivAt.congr_deriv (by hd) ?_
      ring
    · change HasDerivAt (fun t => D2GDR2DP t p (r 0) (r 1) (r 2) (raw r 0) (raw r 1) (raw r 2) (raw r 3) (raw r 4)) (D3GDR2DTDP t p (r 0) (r 1) (r 2) (raw r 0) (raw r 1) (raw r 2) (raw r 3) (raw r 4)) t
      simp only [D2GDR2DP, D3GDR2DTDP]
      refine HasDerivAt.congr_deriv (by hd) ?_
      ring
  · intro t p r hr i
    fin_cases i
    · change HasDerivAt (fun p => D2GDR0DP t p (r 0) (r 1) (r 2) (raw r 0) (raw r 1) (raw r 2) (raw r 3) (raw r 4)) (D3GDR0DP2 t p (r 0) (r 1) (r 2) (raw r 0) (raw r 1) (raw r 2) (raw r 3) (raw r 4)) p
      simp only [D2GDR0DP, D3GDR0DP2]
      refine HasDerivAt.congr_deriv (by hd) ?_
      ring
    · change HasDerivAt (fun p => D2GDR1DP t p (r 0) (r 1) (r 2) (raw r 0) (raw r 1) (raw r 2) (raw r 3) (raw r 4)) (D3GDR1DP2 t p (r 0) (r 1) (r 2) (raw r 0) (raw r 1) (raw r 2) (raw r 3) (raw r 4)) p
      simp only [D2GDR1DP, D3GDR1DP2]
      refine HasDerivAt.congr_deriv (by hd) ?_
      ring
    · change HasDerivAt (fun p => D2GDR2DP t p (r 0) (r 1) (r 2) (raw r 0) (raw r 1) (raw r 2) (raw r 3) (raw r 4)) (D3GDR2DP2 t p (r 0) (r 1) (r 2) (raw r 0) (raw r 1) (raw r 2) (raw r 3) (raw r 4)) p
      simp only [D2GDR2DP, D3GDR2DP2]
      refine HasDerivAt.congr_deriv (by hd) ?_
      ring
  · intro t p r hr i
    fin_cases i
    · change HasDerivAt (fun t => DGDR0 t p (r 0) (r 1) (r 2) (raw r 0) (raw r 1) (raw r 2) (raw r 3) (raw r 4)) (-(-(D2GDR0DT t p (r 0) (r 1) (r 2) (raw r 0) (raw r 1) (raw r 2) (raw r 3) (raw r 4)))) t
      simp only [WG12, dWG12, WG13, dWG13, WG23, dWG23, DGDR0, D2GDR0DT]
      refine HasDerivAt.congr_deriv (by hd) ?_
      ring
    · change HasDerivAt (fun t => DGDR1 t p (r 0) (r 1) (r 2) (raw r 0) (raw r 1) (raw r 2) (raw r 3) (raw r 4)) (-(-(D2GDR1DT t p (r 0) (r 1) (r 2) (raw r 0) (raw r 1) (raw r 2) (raw r 3) (raw r 4)))) t
      simp only [WG12, dWG12, WG13, dWG13, WG23, dWG23, DGDR1, D2GDR1DT]
      refine HasDerivAt.congr_deriv (by hd) ?_
      ring
    · change HasDerivAt (fun t => DGDR2 t p (r 0) (r 1) (r 2) (raw r 0) (raw r 1) (raw r 2) (raw r 3) (raw r 4)) (-(-(D2GDR2DT t p (r 0) (r 1) (r 2) (raw r 0) (raw r 1) (raw r 2) (raw r 3) (raw r 4)))) t
      simp only [WG12, dWG12, WG13, dWG13, DGDR2, D2GDR2DT]
      refine HasDerivAt.congr_deriv (by hd) ?_
      ring
  · intro t p r hr i
    fin_cases i
    · change HasDerivAt (fun p => DGDR0 t p (r 0) (r 1) (r 2) (raw r 0) (raw r 1) (raw r 2) (raw r 3) (raw r 4)) (D2GDR0DP t p (r 0) (r 1) (r 2) (raw r 0) (raw r 1) (raw r 2) (raw r 3) (raw r 4)) p
      simp only [WG12, dWG12, WG13, dWG13, WG23, dWG23, DGDR0, D2GDR0DP]
      refine HasDerivAt.congr_deriv (by hd) ?_
      ring
    · change HasDerivAt (fun p => DGDR1 t p (r 0) (r 1) (r 2) (raw r 0) (raw r 1) (raw r 2) (raw r 3) (raw r 4)) (D2GDR1DP t p (r 0) (r 1) (r 2) (raw r 0) (raw r 1) (raw r 2) (raw r 3) (raw r 4)) p
      simp only [WG12, dWG12, WG13, dWG13, WG23, dWG23, DGDR1, D2GDR1DP]
      refine HasDerivAt.congr_deriv (by hd) ?_
      ring
    · change HasDerivAt (fun p => DGDR2 t p (r 0) (r 1) (r 2) (raw r 0) (raw r 1) (raw r 2) (raw r 3) (raw r 4)) (D2GDR2DP t p (r 0) (r 1) (r 2) (raw r 0) (raw r 1) (raw r 2) (raw r 3) (raw r 4)) p
      simp only [WG12, dWG12, WG13, dWG13, DGDR2, D2GDR2DP]
      refine HasDerivAt.congr_deriv (by hd) ?_
      ring
  · intro t p r hr h0 i
    fin_cases i
    · change HasDerivAt (fun t => -(D2GDR0DT t p (r 0) (r 1) (r 2) (raw r 0) (raw r 1) (raw r 2) (raw r 3) (raw r 4))) (-t * (D3GDR0DT2 t p (r 0) (r 1) (r 2) (raw r 0) (raw r 1) (raw r 2) (raw r 3) (raw r 4)) / t) t
      simp only [D2GDR0DT, D3GDR0DT2]
      refine HasDerivAt.congr_deriv (by hd) ?_
      first | ring | (field_simp; ring)
    · change HasDerivAt (fun t => -(D2GDR1DT t p (r 0) (r 1) (r 2) (raw r 0) (raw r 1) (raw r 2) (raw r 3) (raw r 4))) (-t * (D3GDR1DT2 t p (r 0) (r 1) (r 2) (raw r 0) (raw r 1) (raw r 2) (raw r 3) (raw r 4)) / t) t
      simp only [D2GDR1DT, D3GDR1DT2]
      refine HasDerivAt.congr_deriv (by hd) ?_
      first | ring | (field_simp; ring)
    · change HasDerivAt (fun t => -(D2GDR2DT t p (r 0) (r 1) (r 2) (raw r 0) (raw r 1) (raw r 2) (raw r 3) (raw r 4))) (-t * (D3GDR2DT2 t p (r 0) (r 1) (r 2) (raw r 0) (raw r 1) (raw r 2) (raw r 3) (raw r 4)) / t) t
      simp only [D2GDR2DT, D3GDR2DT2]
      refine HasDerivAt.congr_deriv (by hd) ?_
      first | ring | (field_simp; ring)
  · intro t p r hr
    refine grad_of_partials ?_ fun j => partial_of_update ?_
    · simp only [ofSites, F, D2GDP2]; dd
    · fin_cases j
      · change HasDerivAt (fun _ : ℝ => (0 : ℝ)) (0 : ℝ) _
        exact hasDerivAt_const _ _
      · change HasDerivAt (fun _ : ℝ => (0 : ℝ)) (0 : ℝ) _
        exact hasDerivAt_const _ _
      · change HasDerivAt (fun _ : ℝ => (0 : ℝ)) (0 : ℝ) _
        exact hasDerivAt_const _ _
  · intro t p r hr i j; fin_cases i <;> fin_cases j <;> rfl
  · intro t p r hr i j k; fin_cases i <;> fin_cases j <;> fin_cases k <;> exact ⟨rfl, rfl⟩
  · intro r hr; rfl

theorem raw_continuous (k : Fin 5) : Continuous fun r => raw r k := by
  fin_cases k
  · change Continuous fun r : Fin 3 → ℝ => r 0 + r 2
    fun_prop
  · change Continuous fun r : Fin 3 → ℝ => r 1
    fun_prop
  · change Continuous fun r : Fin 3 → ℝ => 1 - r 0 - r 1 - r 2
    fun_prop
  · change Continuous fun r : Fin 3 → ℝ => r 2 / 2
    fun_prop
  · change Continuous fun r : Fin 3 → ℝ => 1 - r 2
    fun_prop

theorem consistent : mix.Consistent (Interior raw) := consistent_clamp F raw raw_continuous consistent_raw

/-- The dependent end member of majorite.c. -/
def dep : Fin 4 := 0

end Majorite

/-- **C24.** Majorite (majorite.c): derivatives, entropy, enthalpy, heat capacity and volume of mixing fit together. -/
theorem C24_majorite : Majorite.mix.Consistent (Interior Majorite.raw) := Majorite.consistent

/-- The interior contains the composition 1 / 4, 1 / 4, 1 / 4. -/
example : Interior Majorite.raw ![1 / 4, 1 / 4, 1 / 4] := by
  intro k
  fin_cases k
  · change ((1 / 4) + (1 / 4) : ℝ) > eps; unfold eps; norm_num
  · change ((1 / 4) : ℝ) > eps; unfold eps; norm_num
  · change (1 - (1 / 4) - (1 / 4) - (1 / 4) : ℝ) > eps; unfold eps; norm_num
  · change ((1 / 4) / 2 : ℝ) > eps; unfold eps; norm_num
  · change (1 - (1 / 4) : ℝ) > eps; unfold eps; norm_num

/-- **C24.** The chemical potentials `act*` returns are the derivatives of the total Gibbs energy of mixing. -/
theorem C24_majorite_potentials (t p : ℝ) (m : Fin 4 → ℝ) (h0 : ∑ i, m i ≠ 0)
    (hr : Interior Majorite.raw (toR Majorite.dep m)) (i : Fin 4) :
    Partial (fun m => (∑ i, m i) * Majorite.mix.g t p (toR Majorite.dep m)) m i
      (mu Majorite.mix Majorite.dep t p (toR Majorite.dep m) i) :=
  C24_potential_is_derivative _ _ Majorite.consistent _ t p m h0 hr i

/-- **C24.** The derivatives of the activities `act*` returns are their derivatives. -/
theorem C24_majorite_activities (t p : ℝ) (r : Fin 3 → ℝ) (hr : Interior Majorite.raw r) (i : Fin 4)
    (k : Fin 3) : Partial (fun r => act Majorite.mix Majorite.dep t p r i) r k (dact Majorite.mix Majorite.dep t p r i k) :=
  C24_activity_derivative _ _ Majorite.consistent (isOpen_interior _ Majorite.raw_continuous) _ t p r hr i k

end

end Magma.Thermo.Mixing
