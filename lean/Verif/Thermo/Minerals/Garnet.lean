import Verif.Thermo.Mixing
import Mathlib.Tactic.FinCases

/-!
Garnet. Generated by /verif/tools/gen/genmix.py from the macros of /repo/sources: one definition per macro, with the
macros it mentions as definitions (the generator checks that this has the value of C's textual substitution). The
theorem `C24_*` of each phase says that the outputs of its mixing functions fit together (`Mix.Consistent`) wherever
the site fractions are above `DBL_EPSILON`. Simplification: `double` is the real numbers.
-/

set_option linter.unusedVariables false
set_option linter.unusedTactic false
set_option linter.unreachableTactic false
set_option linter.unusedSimpArgs false

namespace Magma.Thermo.Mixing

open Magma.Thermo.Extensive Magma.Thermo.Compo

noncomputable section

namespace Garnet

/-- `WH112`, garnet.c 107. -/
def WH112 : ℝ := 21560

/-- `WS112`, garnet.c 108. -/
def WS112 : ℝ := (1879 / 100)

/-- `WV112`, garnet.c 109. -/
def WV112 : ℝ := (1 / 10)

/-- `WH122`, garnet.c 110. -/
def WH122 : ℝ := 69200

/-- `WS122`, garnet.c 111. -/
def WS122 : ℝ := (1879 / 100)

/-- `WV122`, garnet.c 112. -/
def WV122 : ℝ := (1 / 10)

/-- `WH113`, garnet.c 113. -/
def WH113 : ℝ := 20320

/-- `WS113`, garnet.c 114. -/
def WS113 : ℝ := (127 / 25)

/-- `WV113`, garnet.c 115. -/
def WV113 : ℝ := (17 / 100)

/-- `WH133`, garnet.c 116. -/
def WH133 : ℝ := 2620

/-- `WS133`, garnet.c 117. -/
def WS133 : ℝ := (127 / 25)

/-- `WV133`, garnet.c 118. -/
def WV133 : ℝ := (9 / 100)

/-- `WH223`, garnet.c 119. -/
def WH223 : ℝ := 230

/-- `WS223`, garnet.c 120. -/
def WS223 : ℝ := 0

/-- `WV223`, garnet.c 121. -/
def WV223 : ℝ := (1 / 100)

/-- `WH233`, garnet.c 122. -/
def WH233 : ℝ := 3720

/-- `WS233`, garnet.c 123. -/
def WS233 : ℝ := 0

/-- `WV233`, garnet.c 124. -/
def WV233 : ℝ := (3 / 50)

/-- `WH123`, garnet.c 125. -/
def WH123 : ℝ := 0

/-- `WS123`, garnet.c 126. -/
def WS123 : ℝ := 0

/-- `WV123`, garnet.c 127. -/
def WV123 : ℝ := 0

/-- `WG112`, garnet.c 129. -/
def WG112 (t p r0 r1 xal xgr xpy : ℝ) : ℝ :=
  WH112 - t * WS112 + p * WV112

/-- `WG122`, garnet.c 130. -/
def WG122 (t p r0 r1 xal xgr xpy : ℝ) : ℝ :=
  WH122 - t * WS122 + p * WV122

/-- `WG113`, garnet.c 131. -/
def WG113 (t p r0 r1 xal xgr xpy : ℝ) : ℝ :=
  WH113 - t * WS113 + p * WV113

/-- `WG133`, garnet.c 132. -/
def WG133 (t p r0 r1 xal xgr xpy : ℝ) : ℝ :=
  WH133 - t * WS133 + p * WV133

/-- `WG223`, garnet.c 133. -/
def WG223 (t p r0 r1 xal xgr xpy : ℝ) : ℝ :=
  WH223 - t * WS223 + p * WV223

/-- `WG233`, garnet.c 134. -/
def WG233 (t p r0 r1 xal xgr xpy : ℝ) : ℝ :=
  WH233 - t * WS233 + p * WV233

/-- `WG123`, garnet.c 135. -/
def WG123 (t p r0 r1 xal xgr xpy : ℝ) : ℝ :=
  WH123 - t * WS123 + p * WV123

/-- `S`, garnet.c 153-157. -/
def S (t p r0 r1 xal xgr xpy : ℝ) : ℝ :=
  (-3) * R * (xgr * Real.log xgr + xpy * Real.log xpy + xal * Real.log xal) + WS112 * xgr * xpy * (xgr + xal /
    2) + WS122 * xgr * xpy * (xpy + xal / 2) + WS113 * xgr * xal * (xgr + xpy / 2) + WS133 * xgr * xal * (xal +
    xpy / 2) + WS223 * xpy * xal * (xpy + xgr / 2) + WS233 * xpy * xal * (xal + xgr / 2) + WS123 * xgr * xpy *
    xal

/-- `H`, garnet.c 158-161. -/
def H (t p r0 r1 xal xgr xpy : ℝ) : ℝ :=
  WH112 * xgr * xpy * (xgr + xal / 2) + WH122 * xgr * xpy * (xpy + xal / 2) + WH113 * xgr * xal * (xgr + xpy /
    2) + WH133 * xgr * xal * (xal + xpy / 2) + WH223 * xpy * xal * (xpy + xgr / 2) + WH233 * xpy * xal * (xal +
    xgr / 2) + WH123 * xgr * xpy * xal

/-- `V`, garnet.c 162-165. -/
def V (t p r0 r1 xal xgr xpy : ℝ) : ℝ :=
  WV112 * xgr * xpy * (xgr + xal / 2) + WV122 * xgr * xpy * (xpy + xal / 2) + WV113 * xgr * xal * (xgr + xpy /
    2) + WV133 * xgr * xal * (xal + xpy / 2) + WV223 * xpy * xal * (xpy + xgr / 2) + WV233 * xpy * xal * (xal +
    xgr / 2) + WV123 * xgr * xpy * xal

/-- `G`, garnet.c 166. -/
def G (t p r0 r1 xal xgr xpy : ℝ) : ℝ :=
  (H t p r0 r1 xal xgr xpy) - t * (S t p r0 r1 xal xgr xpy) + p * (V t p r0 r1 xal xgr xpy)

/-- `DGDR0`, garnet.c 168-175. -/
def DGDR0 (t p r0 r1 xal xgr xpy : ℝ) : ℝ :=
  3 * R * t * (Real.log xal - Real.log xpy) + (WG112 t p r0 r1 xal xgr xpy) * (xgr * xpy / 2 - xgr * (xgr +
    xal / 2)) + (WG122 t p r0 r1 xal xgr xpy) * ((-xgr) * xpy / 2 - xgr * (xpy + xal / 2)) + (WG113 t p r0 r1
    xal xgr xpy) * ((-xgr) * xal / 2 + xgr * (xgr + xpy / 2)) + (WG133 t p r0 r1 xal xgr xpy) * (xgr * xal / 2 +
    xgr * (xal + xpy / 2)) + (WG223 t p r0 r1 xal xgr xpy) * ((-xpy) * xal + (xpy - xal) * (xpy + xgr / 2)) +
    (WG233 t p r0 r1 xal xgr xpy) * (xpy * xal + (xpy - xal) * (xal + xgr / 2)) + (WG123 t p r0 r1 xal xgr xpy)
    * xgr * (xpy - xal)

/-- `DGDR1`, garnet.c 176-183. -/
def DGDR1 (t p r0 r1 xal xgr xpy : ℝ) : ℝ :=
  3 * R * t * (Real.log xgr - Real.log xpy) + (WG112 t p r0 r1 xal xgr xpy) * (xgr * xpy + (xpy - xgr) * (xgr
    + xal / 2)) + (WG122 t p r0 r1 xal xgr xpy) * ((-xgr) * xpy + (xpy - xgr) * (xpy + xal / 2)) + (WG113 t p r0
    r1 xal xgr xpy) * (xgr * xal / 2 + xal * (xgr + xpy / 2)) + (WG133 t p r0 r1 xal xgr xpy) * ((-xgr) * xal /
    2 + xal * (xal + xpy / 2)) + (WG223 t p r0 r1 xal xgr xpy) * ((-xpy) * xal / 2 - xal * (xpy + xgr / 2)) +
    (WG233 t p r0 r1 xal xgr xpy) * (xpy * xal / 2 - xal * (xal + xgr / 2)) + (WG123 t p r0 r1 xal xgr xpy) *
    (xpy - xgr) * xal

/-- `DGDP`, garnet.c 184. -/
def DGDP (t p r0 r1 xal xgr xpy : ℝ) : ℝ :=
  (V t p r0 r1 xal xgr xpy)

/-- `D2GDR0R0`, garnet.c 186-189. -/
def D2GDR0R0 (t p r0 r1 xal xgr xpy : ℝ) : ℝ :=
  3 * R * t * (1 / xal + 1 / xpy) + xgr * ((WG122 t p r0 r1 xal xgr xpy) - (WG112 t p r0 r1 xal xgr xpy) +
    (WG133 t p r0 r1 xal xgr xpy) - (WG113 t p r0 r1 xal xgr xpy)) + 2 * (xpy - xal) * ((WG233 t p r0 r1 xal xgr
    xpy) - (WG223 t p r0 r1 xal xgr xpy)) - 2 * (WG223 t p r0 r1 xal xgr xpy) * (xpy + xgr / 2) - 2 * (WG233 t p
    r0 r1 xal xgr xpy) * (xal + xgr / 2) - 2 * (WG123 t p r0 r1 xal xgr xpy) * xgr

/-- `D2GDR0R1`, garnet.c 190-197. -/
def D2GDR0R1 (t p r0 r1 xal xgr xpy : ℝ) : ℝ :=
  3 * R * t * (1 / xpy) + (WG112 t p r0 r1 xal xgr xpy) * ((xpy - xgr) / 2 - (xgr + xal / 2) - xgr) + (WG122 t
    p r0 r1 xal xgr xpy) * ((-(xpy - xgr)) / 2 - (xpy + xal / 2) + xgr) + (WG113 t p r0 r1 xal xgr xpy) *
    ((-xal) / 2 + (xgr + xpy / 2) + xgr / 2) + (WG133 t p r0 r1 xal xgr xpy) * (xal / 2 + (xal + xpy / 2) - xgr
    / 2) + (WG223 t p r0 r1 xal xgr xpy) * (xal - (xpy + xgr / 2) - (xpy - xal) / 2) + (WG233 t p r0 r1 xal xgr
    xpy) * (-xal - (xal + xgr / 2) + (xpy - xal) / 2) + (WG123 t p r0 r1 xal xgr xpy) * (xpy - xal - xgr)

/-- `D2GDR0DT`, garnet.c 198-205. -/
def D2GDR0DT (t p r0 r1 xal xgr xpy : ℝ) : ℝ :=
  3 * R * (Real.log xal - Real.log xpy) - (WS112 * (xgr * xpy / 2 - xgr * (xgr + xal / 2)) + WS122 * ((-xgr) *
    xpy / 2 - xgr * (xpy + xal / 2)) + WS113 * ((-xgr) * xal / 2 + xgr * (xgr + xpy / 2)) + WS133 * (xgr * xal /
    2 + xgr * (xal + xpy / 2)) + WS223 * ((-xpy) * xal + (xpy - xal) * (xpy + xgr / 2)) + WS233 * (xpy * xal +
    (xpy - xal) * (xal + xgr / 2)) + WS123 * xgr * (xpy - xal))

/-- `D2GDR0DP`, garnet.c 206-212. -/
def D2GDR0DP (t p r0 r1 xal xgr xpy : ℝ) : ℝ :=
  WV112 * (xgr * xpy / 2 - xgr * (xgr + xal / 2)) + WV122 * ((-xgr) * xpy / 2 - xgr * (xpy + xal / 2)) + WV113
    * ((-xgr) * xal / 2 + xgr * (xgr + xpy / 2)) + WV133 * (xgr * xal / 2 + xgr * (xal + xpy / 2)) + WV223 *
    ((-xpy) * xal + (xpy - xal) * (xpy + xgr / 2)) + WV233 * (xpy * xal + (xpy - xal) * (xal + xgr / 2)) + WV123
    * xgr * (xpy - xal)

/-- `D2GDR1R1`, garnet.c 213-216. -/
def D2GDR1R1 (t p r0 r1 xal xgr xpy : ℝ) : ℝ :=
  3 * R * t * (1 / xgr + 1 / xpy) + 2 * (xpy - xgr) * ((WG112 t p r0 r1 xal xgr xpy) - (WG122 t p r0 r1 xal
    xgr xpy)) - 2 * (WG112 t p r0 r1 xal xgr xpy) * (xgr + xal / 2) - 2 * (WG122 t p r0 r1 xal xgr xpy) * (xpy +
    xal / 2) + xal * ((WG113 t p r0 r1 xal xgr xpy) - (WG133 t p r0 r1 xal xgr xpy) + (WG223 t p r0 r1 xal xgr
    xpy) - (WG233 t p r0 r1 xal xgr xpy)) - 2 * (WG123 t p r0 r1 xal xgr xpy) * xal

/-- `D2GDR1DT`, garnet.c 217-224. -/
def D2GDR1DT (t p r0 r1 xal xgr xpy : ℝ) : ℝ :=
  3 * R * (Real.log xgr - Real.log xpy) - (WS112 * (xgr * xpy + (xpy - xgr) * (xgr + xal / 2)) + WS122 *
    ((-xgr) * xpy + (xpy - xgr) * (xpy + xal / 2)) + WS113 * (xgr * xal / 2 + xal * (xgr + xpy / 2)) + WS133 *
    ((-xgr) * xal / 2 + xal * (xal + xpy / 2)) + WS223 * ((-xpy) * xal / 2 - xal * (xpy + xgr / 2)) + WS233 *
    (xpy * xal / 2 - xal * (xal + xgr / 2)) + WS123 * (xpy - xgr) * xal)

/-- `D2GDR1DP`, garnet.c 225-231. -/
def D2GDR1DP (t p r0 r1 xal xgr xpy : ℝ) : ℝ :=
  WV112 * (xgr * xpy + (xpy - xgr) * (xgr + xal / 2)) + WV122 * ((-xgr) * xpy + (xpy - xgr) * (xpy + xal / 2))
    + WV113 * (xgr * xal / 2 + xal * (xgr + xpy / 2)) + WV133 * ((-xgr) * xal / 2 + xal * (xal + xpy / 2)) +
    WV223 * ((-xpy) * xal / 2 - xal * (xpy + xgr / 2)) + WV233 * (xpy * xal / 2 - xal * (xal + xgr / 2)) + WV123
    * (xpy - xgr) * xal

/-- `D2GDT2`, garnet.c 232. -/
def D2GDT2 (t p r0 r1 xal xgr xpy : ℝ) : ℝ :=
  0

/-- `D2GDTDP`, garnet.c 233. -/
def D2GDTDP (t p r0 r1 xal xgr xpy : ℝ) : ℝ :=
  0

/-- `D2GDP2`, garnet.c 234. -/
def D2GDP2 (t p r0 r1 xal xgr xpy : ℝ) : ℝ :=
  0

/-- `D3GDR0R0R0`, garnet.c 236-237. -/
def D3GDR0R0R0 (t p r0 r1 xal xgr xpy : ℝ) : ℝ :=
  3 * R * t * (1 / xpy ^ 2 - 1 / xal ^ 2) + 6 * (WG223 t p r0 r1 xal xgr xpy) - 6 * (WG233 t p r0 r1 xal xgr
    xpy)

/-- `D3GDR0R0R1`, garnet.c 238-239. -/
def D3GDR0R0R1 (t p r0 r1 xal xgr xpy : ℝ) : ℝ :=
  3 * R * t * (1 / xpy ^ 2) + (WG122 t p r0 r1 xal xgr xpy) - (WG112 t p r0 r1 xal xgr xpy) + (WG133 t p r0 r1
    xal xgr xpy) - (WG113 t p r0 r1 xal xgr xpy) - 3 * (WG233 t p r0 r1 xal xgr xpy) + 3 * (WG223 t p r0 r1 xal
    xgr xpy) - 2 * (WG123 t p r0 r1 xal xgr xpy)

/-- `D3GDR0R0DT`, garnet.c 240-243. -/
def D3GDR0R0DT (t p r0 r1 xal xgr xpy : ℝ) : ℝ :=
  3 * R * (1 / xal + 1 / xpy) - (xgr * (WS122 - WS112 + WS133 - WS113) + 2 * (xpy - xal) * (WS233 - WS223) - 2
    * WS223 * (xpy + xgr / 2) - 2 * WS233 * (xal + xgr / 2) - 2 * WS123 * xgr)

/-- `D3GDR0R0DP`, garnet.c 244-246. -/
def D3GDR0R0DP (t p r0 r1 xal xgr xpy : ℝ) : ℝ :=
  xgr * (WV122 - WV112 + WV133 - WV113) + 2 * (xpy - xal) * (WV233 - WV223) - 2 * WV223 * (xpy + xgr / 2) - 2
    * WV233 * (xal + xgr / 2) - 2 * WV123 * xgr

/-- `D3GDR0R1R1`, garnet.c 247-248. -/
def D3GDR0R1R1 (t p r0 r1 xal xgr xpy : ℝ) : ℝ :=
  3 * R * t * (1 / xpy ^ 2) + (WG113 t p r0 r1 xal xgr xpy) - (WG133 t p r0 r1 xal xgr xpy) + (WG223 t p r0 r1
    xal xgr xpy) - (WG233 t p r0 r1 xal xgr xpy) - 3 * (WG112 t p r0 r1 xal xgr xpy) + 3 * (WG122 t p r0 r1 xal
    xgr xpy) - 2 * (WG123 t p r0 r1 xal xgr xpy)

/-- `D3GDR0R1DT`, garnet.c 249-256. -/
def D3GDR0R1DT (t p r0 r1 xal xgr xpy : ℝ) : ℝ :=
  3 * R * (1 / xpy) - (WS112 * ((xpy - xgr) / 2 - (xgr + xal / 2) - xgr) + WS122 * ((-(xpy - xgr)) / 2 - (xpy
    + xal / 2) + xgr) + WS113 * ((-xal) / 2 + (xgr + xpy / 2) + xgr / 2) + WS133 * (xal / 2 + (xal + xpy / 2) -
    xgr / 2) + WS223 * (xal - (xpy + xgr / 2) - (xpy - xal) / 2) + WS233 * (-xal - (xal + xgr / 2) + (xpy - xal)
    / 2) + WS123 * (xpy - xal - xgr))

/-- `D3GDR0R1DP`, garnet.c 257-263. -/
def D3GDR0R1DP (t p r0 r1 xal xgr xpy : ℝ) : ℝ :=
  WV112 * ((xpy - xgr) / 2 - (xgr + xal / 2) - xgr) + WV122 * ((-(xpy - xgr)) / 2 - (xpy + xal / 2) + xgr) +
    WV113 * ((-xal) / 2 + (xgr + xpy / 2) + xgr / 2) + WV133 * (xal / 2 + (xal + xpy / 2) - xgr / 2) + WV223 *
    (xal - (xpy + xgr / 2) - (xpy - xal) / 2) + WV233 * (-xal - (xal + xgr / 2) + (xpy - xal) / 2) + WV123 *
    (xpy - xal - xgr)

/-- `D3GDR1R1R1`, garnet.c 264-265. -/
def D3GDR1R1R1 (t p r0 r1 xal xgr xpy : ℝ) : ℝ :=
  3 * R * t * (1 / xpy ^ 2 - 1 / xgr ^ 2) + 6 * (WG122 t p r0 r1 xal xgr xpy) - 6 * (WG112 t p r0 r1 xal xgr
    xpy)

/-- `D3GDR1R1DT`, garnet.c 266-269. -/
def D3GDR1R1DT (t p r0 r1 xal xgr xpy : ℝ) : ℝ :=
  3 * R * (1 / xgr + 1 / xpy) - (2 * (xpy - xgr) * (WS112 - WS122) - 2 * WS112 * (xgr + xal / 2) - 2 * WS122 *
    (xpy + xal / 2) + xal * (WS113 - WS133 + WS223 - WS233) - 2 * WS123 * xal)

/-- `D3GDR1R1DP`, garnet.c 270-272. -/
def D3GDR1R1DP (t p r0 r1 xal xgr xpy : ℝ) : ℝ :=
  2 * (xpy - xgr) * (WV112 - WV122) - 2 * WV112 * (xgr + xal / 2) - 2 * WV122 * (xpy + xal / 2) + xal * (WV113
    - WV133 + WV223 - WV233) - 2 * WV123 * xal

/-- `D3GDT3`, garnet.c 273. -/
def D3GDT3 (t p r0 r1 xal xgr xpy : ℝ) : ℝ :=
  0

/-- `D3GDT2DP`, garnet.c 274. -/
def D3GDT2DP (t p r0 r1 xal xgr xpy : ℝ) : ℝ :=
  0

/-- `D3GDTDP2`, garnet.c 275. -/
def D3GDTDP2 (t p r0 r1 xal xgr xpy : ℝ) : ℝ :=
  0

/-- `D3GDP3`, garnet.c 276. -/
def D3GDP3 (t p r0 r1 xal xgr xpy : ℝ) : ℝ :=
  0

/-- `D3GDR0DT2`, garnet.c 278. -/
def D3GDR0DT2 (t p r0 r1 xal xgr xpy : ℝ) : ℝ :=
  0

/-- `D3GDR0DTDP`, garnet.c 279. -/
def D3GDR0DTDP (t p r0 r1 xal xgr xpy : ℝ) : ℝ :=
  0

/-- `D3GDR0DP2`, garnet.c 280. -/
def D3GDR0DP2 (t p r0 r1 xal xgr xpy : ℝ) : ℝ :=
  0

/-- `D3GDR1DT2`, garnet.c 281. -/
def D3GDR1DT2 (t p r0 r1 xal xgr xpy : ℝ) : ℝ :=
  0

/-- `D3GDR1DTDP`, garnet.c 282. -/
def D3GDR1DTDP (t p r0 r1 xal xgr xpy : ℝ) : ℝ :=
  0

/-- `D3GDR1DP2`, garnet.c 283. -/
def D3GDR1DP2 (t p r0 r1 xal xgr xpy : ℝ) : ℝ :=
  0

/-- The macros as the functions of garnet.c use them: `gmix`, `hmix`, `smix`, `cpmix`, `vmix` and `act`. -/
def F (x : Fin 3 → ℝ) : Mix 2 where
  g t p r := G t p (r 0) (r 1) (x 0) (x 1) (x 2)
  gr t p r := ![DGDR0 t p (r 0) (r 1) (x 0) (x 1) (x 2), DGDR1 t p (r 0) (r 1) (x 0) (x 1) (x 2)]
  grr t p r := ![![D2GDR0R0 t p (r 0) (r 1) (x 0) (x 1) (x 2), D2GDR0R1 t p (r 0) (r 1) (x 0) (x 1) (x 2)], ![D2GDR0R1 t p (r 0) (r 1) (x 0) (x 1) (x 2), D2GDR1R1 t p (r 0) (r 1) (x 0) (x 1) (x 2)]]
  grrr t p r := ![![![D3GDR0R0R0 t p (r 0) (r 1) (x 0) (x 1) (x 2), D3GDR0R0R1 t p (r 0) (r 1) (x 0) (x 1) (x 2)], ![D3GDR0R0R1 t p (r 0) (r 1) (x 0) (x 1) (x 2), D3GDR0R1R1 t p (r 0) (r 1) (x 0) (x 1) (x 2)]], ![![D3GDR0R0R1 t p (r 0) (r 1) (x 0) (x 1) (x 2), D3GDR0R1R1 t p (r 0) (r 1) (x 0) (x 1) (x 2)], ![D3GDR0R1R1 t p (r 0) (r 1) (x 0) (x 1) (x 2), D3GDR1R1R1 t p (r 0) (r 1) (x 0) (x 1) (x 2)]]]
  h t p r := (G t p (r 0) (r 1) (x 0) (x 1) (x 2)) + t * (S t p (r 0) (r 1) (x 0) (x 1) (x 2))
  s t p r := S t p (r 0) (r 1) (x 0) (x 1) (x 2)
  sr t p r := ![-(D2GDR0DT t p (r 0) (r 1) (x 0) (x 1) (x 2)), -(D2GDR1DT t p (r 0) (r 1) (x 0) (x 1) (x 2))]
  srr t p r := ![![-(D3GDR0R0DT t p (r 0) (r 1) (x 0) (x 1) (x 2)), -(D3GDR0R1DT t p (r 0) (r 1) (x 0) (x 1) (x 2))], ![-(D3GDR0R1DT t p (r 0) (r 1) (x 0) (x 1) (x 2)), -(D3GDR1R1DT t p (r 0) (r 1) (x 0) (x 1) (x 2))]]
  cp t p r := -t * (D2GDT2 t p (r 0) (r 1) (x 0) (x 1) (x 2))
  cpt t p r := -t * (D3GDT3 t p (r 0) (r 1) (x 0) (x 1) (x 2)) - D2GDT2 t p (r 0) (r 1) (x 0) (x 1) (x 2)
  cpr t p r := ![-t * (D3GDR0DT2 t p (r 0) (r 1) (x 0) (x 1) (x 2)), -t * (D3GDR1DT2 t p (r 0) (r 1) (x 0) (x 1) (x 2))]
  v t p r := DGDP t p (r 0) (r 1) (x 0) (x 1) (x 2)
  vr t p r := ![D2GDR0DP t p (r 0) (r 1) (x 0) (x 1) (x 2), D2GDR1DP t p (r 0) (r 1) (x 0) (x 1) (x 2)]
  vrr t p r := ![![D3GDR0R0DP t p (r 0) (r 1) (x 0) (x 1) (x 2), D3GDR0R1DP t p (r 0) (r 1) (x 0) (x 1) (x 2)], ![D3GDR0R1DP t p (r 0) (r 1) (x 0) (x 1) (x 2), D3GDR1R1DP t p (r 0) (r 1) (x 0) (x 1) (x 2)]]
  vt t p r := D2GDTDP t p (r 0) (r 1) (x 0) (x 1) (x 2)
  vp t p r := D2GDP2 t p (r 0) (r 1) (x 0) (x 1) (x 2)
  vtt t p r := D3GDT2DP t p (r 0) (r 1) (x 0) (x 1) (x 2)
  vtp t p r := D3GDTDP2 t p (r 0) (r 1) (x 0) (x 1) (x 2)
  vpp t p r := D3GDP3 t p (r 0) (r 1) (x 0) (x 1) (x 2)
  vrt t p r := ![D3GDR0DTDP t p (r 0) (r 1) (x 0) (x 1) (x 2), D3GDR1DTDP t p (r 0) (r 1) (x 0) (x 1) (x 2)]
  vrp t p r := ![D3GDR0DP2 t p (r 0) (r 1) (x 0) (x 1) (x 2), D3GDR1DP2 t p (r 0) (r 1) (x 0) (x 1) (x 2)]
  fx r := ![x 0, x 1]

/-- Site fractions before clamping, lines 541 542 543 636 637 638 689 690 691 703 704 705 782 783 784 of garnet.c. -/
def raw (r : Fin 2 → ℝ) : Fin 3 → ℝ := ![r 0, r 1, 1 - r 0 - r 1]

/-- The phase as coded in garnet.c. -/
def mix : Mix 2 := ofSites F fun r k => clamp (raw r k)

theorem G_d0 (t p r0 r1 : ℝ) (h0 : 0 < r0) (h1 : 0 < r1) (h2 : 0 < 1 - r0 - r1) :
    HasDerivAt (fun r0 => G t p r0 r1 r0 r1 (1 - r0 - r1)) (DGDR0 t p r0 r1 r0 r1 (1 - r0 - r1)) r0 := by
  have n0 := h0.ne'
  have n1 := h1.ne'
  have n2 := h2.ne'
  simp only [H, S, V, G, WG112, WG122, WG113, WG133, WG223, WG233, WG123, DGDR0]
  refine HasDerivAt.congr_deriv (by hd) ?_
  all_goals first | ring1 | (field_simp; done) | (field_simp; ring1)

theorem G_d1 (t p r0 r1 : ℝ) (h0 : 0 < r0) (h1 : 0 < r1) (h2 : 0 < 1 - r0 - r1) :
    HasDerivAt (fun r1 => G t p r0 r1 r0 r1 (1 - r0 - r1)) (DGDR1 t p r0 r1 r0 r1 (1 - r0 - r1)) r1 := by
  have n0 := h0.ne'
  have n1 := h1.ne'
  have n2 := h2.ne'
  simp only [H, S, V, G, WG112, WG122, WG113, WG133, WG223, WG233, WG123, DGDR1]
  refine HasDerivAt.congr_deriv (by hd) ?_
  all_goals first | ring1 | (field_simp; done) | (field_simp; ring1)

theorem G_diff (t p : ℝ) (r : Fin 2 → ℝ) (h0 : 0 < r 0) (h1 : 0 < r 1) (h2 : 0 < 1 - r 0 - r 1) :
    DifferentiableAt ℝ (fun r : Fin 2 → ℝ => G t p (r 0) (r 1) (r 0) (r 1) (1 - r 0 - r 1)) r := by
  have n0 := h0.ne'
  have n1 := h1.ne'
  have n2 := h2.ne'
  simp only [H, S, V, G]
  dd

theorem DGDR0_d0 (t p r0 r1 : ℝ) (h0 : 0 < r0) (h1 : 0 < r1) (h2 : 0 < 1 - r0 - r1) :
    HasDerivAt (fun r0 => DGDR0 t p r0 r1 r0 r1 (1 - r0 - r1)) (D2GDR0R0 t p r0 r1 r0 r1 (1 - r0 - r1)) r0 := by
  have n0 := h0.ne'
  have n1 := h1.ne'
  have n2 := h2.ne'
  simp only [WG112, WG122, WG113, WG133, WG223, WG233, WG123, DGDR0, D2GDR0R0]
  refine HasDerivAt.congr_deriv (by hd) ?_
  all_goals first | ring1 | (field_simp; done) | (field_simp; ring1)

theorem DGDR0_d1 (t p r0 r1 : ℝ) (h0 : 0 < r0) (h1 : 0 < r1) (h2 : 0 < 1 - r0 - r1) :
    HasDerivAt (fun r1 => DGDR0 t p r0 r1 r0 r1 (1 - r0 - r1)) (D2GDR0R1 t p r0 r1 r0 r1 (1 - r0 - r1)) r1 := by
  have n0 := h0.ne'
  have n1 := h1.ne'
  have n2 := h2.ne'
  simp only [WG112, WG122, WG113, WG133, WG223, WG233, WG123, DGDR0, D2GDR0R1]
  refine HasDerivAt.congr_deriv (by hd) ?_
  all_goals first | ring1 | (field_simp; done) | (field_simp; ring1)

theorem DGDR0_diff (t p : ℝ) (r : Fin 2 → ℝ) (h0 : 0 < r 0) (h1 : 0 < r 1) (h2 : 0 < 1 - r 0 - r 1) :
    DifferentiableAt ℝ (fun r : Fin 2 → ℝ => DGDR0 t p (r 0) (r 1) (r 0) (r 1) (1 - r 0 - r 1)) r := by
  have n0 := h0.ne'
  have n1 := h1.ne'
  have n2 := h2.ne'
  simp only [WG112, WG122, WG113, WG133, WG223, WG233, WG123, DGDR0]
  dd

theorem DGDR1_d0 (t p r0 r1 : ℝ) (h0 : 0 < r0) (h1 : 0 < r1) (h2 : 0 < 1 - r0 - r1) :
    HasDerivAt (fun r0 => DGDR1 t p r0 r1 r0 r1 (1 - r0 - r1)) (D2GDR0R1 t p r0 r1 r0 r1 (1 - r0 - r1)) r0 := by
  have n0 := h0.ne'
  have n1 := h1.ne'
  have n2 := h2.ne'
  simp only [WG112, WG122, WG113, WG133, WG223, WG233, WG123, DGDR1, D2GDR0R1]
  refine HasDerivAt.congr_deriv (by hd) ?_
  all_goals first | ring1 | (field_simp; done) | (field_simp; ring1)

theorem DGDR1_d1 (t p r0 r1 : ℝ) (h0 : 0 < r0) (h1 : 0 < r1) (h2 : 0 < 1 - r0 - r1) :
    HasDerivAt (fun r1 => DGDR1 t p r0 r1 r0 r1 (1 - r0 - r1)) (D2GDR1R1 t p r0 r1 r0 r1 (1 - r0 - r1)) r1 := by
  have n0 := h0.ne'
  have n1 := h1.ne'
  have n2 := h2.ne'
  simp only [WG112, WG122, WG113, WG133, WG223, WG233, WG123, DGDR1, D2GDR1R1]
  refine HasDerivAt.congr_deriv (by hd) ?_
  all_goals first | ring1 | (field_simp; done) | (field_simp; ring1)

theorem DGDR1_diff (t p : ℝ) (r : Fin 2 → ℝ) (h0 : 0 < r 0) (h1 : 0 < r 1) (h2 : 0 < 1 - r 0 - r 1) :
    DifferentiableAt ℝ (fun r : Fin 2 → ℝ => DGDR1 t p (r 0) (r 1) (r 0) (r 1) (1 - r 0 - r 1)) r := by
  have n0 := h0.ne'
  have n1 := h1.ne'
  have n2 := h2.ne'
  simp only [WG112, WG122, WG113, WG133, WG223, WG233, WG123, DGDR1]
  dd

theorem D2GDR0R0_d0 (t p r0 r1 : ℝ) (h0 : 0 < r0) (h1 : 0 < r1) (h2 : 0 < 1 - r0 - r1) :
    HasDerivAt (fun r0 => D2GDR0R0 t p r0 r1 r0 r1 (1 - r0 - r1)) (D3GDR0R0R0 t p r0 r1 r0 r1 (1 - r0 - r1)) r0 := by
  have n0 := h0.ne'
  have n1 := h1.ne'
  have n2 := h2.ne'
  simp only [WG122, WG112, WG133, WG113, WG233, WG223, WG123, D2GDR0R0, D3GDR0R0R0]
  refine HasDerivAt.congr_deriv (by hd) ?_
  all_goals first | ring1 | (field_simp; done) | (field_simp; ring1)

theorem D2GDR0R0_d1 (t p r0 r1 : ℝ) (h0 : 0 < r0) (h1 : 0 < r1) (h2 : 0 < 1 - r0 - r1) :
    HasDerivAt (fun r1 => D2GDR0R0 t p r0 r1 r0 r1 (1 - r0 - r1)) (D3GDR0R0R1 t p r0 r1 r0 r1 (1 - r0 - r1)) r1 := by
  have n0 := h0.ne'
  have n1 := h1.ne'
  have n2 := h2.ne'
  simp only [WG122, WG112, WG133, WG113, WG233, WG223, WG123, D2GDR0R0, D3GDR0R0R1]
  refine HasDerivAt.congr_deriv (by hd) ?_
  all_goals first | ring1 | (field_simp; done) | (field_simp; ring1)

theorem D2GDR0R0_diff (t p : ℝ) (r : Fin 2 → ℝ) (h0 : 0 < r 0) (h1 : 0 < r 1) (h2 : 0 < 1 - r 0 - r 1) :
    DifferentiableAt ℝ (fun r : Fin 2 → ℝ => D2GDR0R0 t p (r 0) (r 1) (r 0) (r 1) (1 - r 0 - r 1)) r := by
  have n0 := h0.ne'
  have n1 := h1.ne'
  have n2 := h2.ne'
  simp only [WG122, WG112, WG133, WG113, WG233, WG223, WG123, D2GDR0R0]
  dd

theorem D2GDR0R1_d0 (t p r0 r1 : ℝ) (h0 : 0 < r0) (h1 : 0 < r1) (h2 : 0 < 1 - r0 - r1) :
    HasDerivAt (fun r0 => D2GDR0R1 t p r0 r1 r0 r1 (1 - r0 - r1)) (D3GDR0R0R1 t p r0 r1 r0 r1 (1 - r0 - r1)) r0 := by
  have n0 := h0.ne'
  have n1 := h1.ne'
  have n2 := h2.ne'
  simp only [WG112, WG122, WG113, WG133, WG223, WG233, WG123, D2GDR0R1, D3GDR0R0R1]
  refine HasDerivAt.congr_deriv (by hd) ?_
  all_goals first | ring1 | (field_simp; done) | (field_simp; ring1)

theorem D2GDR0R1_d1 (t p r0 r1 : ℝ) (h0 : 0 < r0) (h1 : 0 < r1) (h2 : 0 < 1 - r0 - r1) :
    HasDerivAt (fun r1 => D2GDR0R1 t p r0 r1 r0 r1 (1 - r0 - r1)) (D3GDR0R1R1 t p r0 r1 r0 r1 (1 - r0 - r1)) r1 := by
  have n0 := h0.ne'
  have n1 := h1.ne'
  have n2 := h2.ne'
  simp only [WG112, WG122, WG113, WG133, WG223, WG233, WG123, D2GDR0R1, D3GDR0R1R1]
  refine HasDerivAt.congr_deriv (by hd) ?_
  all_goals first | ring1 | (field_simp; done) | (field_simp; ring1)

theorem D2GDR0R1_diff (t p : ℝ) (r : Fin 2 → ℝ) (h0 : 0 < r 0) (h1 : 0 < r 1) (h2 : 0 < 1 - r 0 - r 1) :
    DifferentiableAt ℝ (fun r : Fin 2 → ℝ => D2GDR0R1 t p (r 0) (r 1) (r 0) (r 1) (1 - r 0 - r 1)) r := by
  have n0 := h0.ne'
  have n1 := h1.ne'
  have n2 := h2.ne'
  simp only [WG112, WG122, WG113, WG133, WG223, WG233, WG123, D2GDR0R1]
  dd

theorem D2GDR1R1_d0 (t p r0 r1 : ℝ) (h0 : 0 < r0) (h1 : 0 < r1) (h2 : 0 < 1 - r0 - r1) :
    HasDerivAt (fun r0 => D2GDR1R1 t p r0 r1 r0 r1 (1 - r0 - r1)) (D3GDR0R1R1 t p r0 r1 r0 r1 (1 - r0 - r1)) r0 := by
  have n0 := h0.ne'
  have n1 := h1.ne'
  have n2 := h2.ne'
  simp only [WG112, WG122, WG113, WG133, WG223, WG233, WG123, D2GDR1R1, D3GDR0R1R1]
  refine HasDerivAt.congr_deriv (by hd) ?_
  all_goals first | ring1 | (field_simp; done) | (field_simp; ring1)

theorem D2GDR1R1_d1 (t p r0 r1 : ℝ) (h0 : 0 < r0) (h1 : 0 < r1) (h2 : 0 < 1 - r0 - r1) :
    HasDerivAt (fun r1 => D2GDR1R1 t p r0 r1 r0 r1 (1 - r0 - r1)) (D3GDR1R1R1 t p r0 r1 r0 r1 (1 - r0 - r1)) r1 := by
  have n0 := h0.ne'
  have n1 := h1.ne'
  have n2 := h2.ne'
  simp only [WG112, WG122, WG113, WG133, WG223, WG233, WG123, D2GDR1R1, D3GDR1R1R1]
  refine HasDerivAt.congr_deriv (by hd) ?_
  all_goals first | ring1 | (field_simp; done) | (field_simp; ring1)

theorem D2GDR1R1_diff (t p : ℝ) (r : Fin 2 → ℝ) (h0 : 0 < r 0) (h1 : 0 < r 1) (h2 : 0 < 1 - r 0 - r 1) :
    DifferentiableAt ℝ (fun r : Fin 2 → ℝ => D2GDR1R1 t p (r 0) (r 1) (r 0) (r 1) (1 - r 0 - r 1)) r := by
  have n0 := h0.ne'
  have n1 := h1.ne'
  have n2 := h2.ne'
  simp only [WG112, WG122, WG113, WG133, WG223, WG233, WG123, D2GDR1R1]
  dd

theorem S_d0 (t p r0 r1 : ℝ) (h0 : 0 < r0) (h1 : 0 < r1) (h2 : 0 < 1 - r0 - r1) :
    HasDerivAt (fun r0 => S t p r0 r1 r0 r1 (1 - r0 - r1)) (-(D2GDR0DT t p r0 r1 r0 r1 (1 - r0 - r1))) r0 := by
  have n0 := h0.ne'
  have n1 := h1.ne'
  have n2 := h2.ne'
  simp only [S, D2GDR0DT]
  refine HasDerivAt.congr_deriv (by hd) ?_
  all_goals first | ring1 | (field_simp; done) | (field_simp; ring1)

theorem S_d1 (t p r0 r1 : ℝ) (h0 : 0 < r0) (h1 : 0 < r1) (h2 : 0 < 1 - r0 - r1) :
    HasDerivAt (fun r1 => S t p r0 r1 r0 r1 (1 - r0 - r1)) (-(D2GDR1DT t p r0 r1 r0 r1 (1 - r0 - r1))) r1 := by
  have n0 := h0.ne'
  have n1 := h1.ne'
  have n2 := h2.ne'
  simp only [S, D2GDR1DT]
  refine HasDerivAt.congr_deriv (by hd) ?_
  all_goals first | ring1 | (field_simp; done) | (field_simp; ring1)

theorem S_diff (t p : ℝ) (r : Fin 2 → ℝ) (h0 : 0 < r 0) (h1 : 0 < r 1) (h2 : 0 < 1 - r 0 - r 1) :
    DifferentiableAt ℝ (fun r : Fin 2 → ℝ => S t p (r 0) (r 1) (r 0) (r 1) (1 - r 0 - r 1)) r := by
  have n0 := h0.ne'
  have n1 := h1.ne'
  have n2 := h2.ne'
  simp only [S]
  dd

theorem D2GDR0DT_d0 (t p r0 r1 : ℝ) (h0 : 0 < r0) (h1 : 0 < r1) (h2 : 0 < 1 - r0 - r1) :
    HasDerivAt (fun r0 => D2GDR0DT t p r0 r1 r0 r1 (1 - r0 - r1)) (D3GDR0R0DT t p r0 r1 r0 r1 (1 - r0 - r1)) r0 := by
  have n0 := h0.ne'
  have n1 := h1.ne'
  have n2 := h2.ne'
  simp only [D2GDR0DT, D3GDR0R0DT]
  refine HasDerivAt.congr_deriv (by hd) ?_
  all_goals first | ring1 | (field_simp; done) | (field_simp; ring1)

theorem D2GDR0DT_d1 (t p r0 r1 : ℝ) (h0 : 0 < r0) (h1 : 0 < r1) (h2 : 0 < 1 - r0 - r1) :
    HasDerivAt (fun r1 => D2GDR0DT t p r0 r1 r0 r1 (1 - r0 - r1)) (D3GDR0R1DT t p r0 r1 r0 r1 (1 - r0 - r1)) r1 := by
  have n0 := h0.ne'
  have n1 := h1.ne'
  have n2 := h2.ne'
  simp only [D2GDR0DT, D3GDR0R1DT]
  refine HasDerivAt.congr_deriv (by hd) ?_
  all_goals first | ring1 | (field_simp; done) | (field_simp; ring1)

theorem D2GDR0DT_diff (t p : ℝ) (r : Fin 2 → ℝ) (h0 : 0 < r 0) (h1 : 0 < r 1) (h2 : 0 < 1 - r 0 - r 1) :
    DifferentiableAt ℝ (fun r : Fin 2 → ℝ => D2GDR0DT t p (r 0) (r 1) (r 0) (r 1) (1 - r 0 - r 1)) r := by
  have n0 := h0.ne'
  have n1 := h1.ne'
  have n2 := h2.ne'
  simp only [D2GDR0DT]
  dd

theorem D2GDR1DT_d0 (t p r0 r1 : ℝ) (h0 : 0 < r0) (h1 : 0 < r1) (h2 : 0 < 1 - r0 - r1) :
    HasDerivAt (fun r0 => D2GDR1DT t p r0 r1 r0 r1 (1 - r0 - r1)) (D3GDR0R1DT t p r0 r1 r0 r1 (1 - r0 - r1)) r0 := by
  have n0 := h0.ne'
  have n1 := h1.ne'
  have n2 := h2.ne'
  simp only [D2GDR1DT, D3GDR0R1DT]
  refine HasDerivAt.congr_deriv (by hd) ?_
  all_goals first | ring1 | (field_simp; done) | (field_simp; ring1)

theorem D2GDR1DT_d1 (t p r0 r1 : ℝ) (h0 : 0 < r0) (h1 : 0 < r1) (h2 : 0 < 1 - r0 - r1) :
    HasDerivAt (fun r1 => D2GDR1DT t p r0 r1 r0 r1 (1 - r0 - r1)) (D3GDR1R1DT t p r0 r1 r0 r1 (1 - r0 - r1)) r1 := by
  have n0 := h0.ne'
  have n1 := h1.ne'
  have n2 := h2.ne'
  simp only [D2GDR1DT, D3GDR1R1DT]
  refine HasDerivAt.congr_deriv (by hd) ?_
  all_goals first | ring1 | (field_simp; done) | (field_simp; ring1)

theorem D2GDR1DT_diff (t p : ℝ) (r : Fin 2 → ℝ) (h0 : 0 < r 0) (h1 : 0 < r 1) (h2 : 0 < 1 - r 0 - r 1) :
    DifferentiableAt ℝ (fun r : Fin 2 → ℝ => D2GDR1DT t p (r 0) (r 1) (r 0) (r 1) (1 - r 0 - r 1)) r := by
  have n0 := h0.ne'
  have n1 := h1.ne'
  have n2 := h2.ne'
  simp only [D2GDR1DT]
  dd

theorem DGDP_d0 (t p r0 r1 : ℝ) (h0 : 0 < r0) (h1 : 0 < r1) (h2 : 0 < 1 - r0 - r1) :
    HasDerivAt (fun r0 => DGDP t p r0 r1 r0 r1 (1 - r0 - r1)) (D2GDR0DP t p r0 r1 r0 r1 (1 - r0 - r1)) r0 := by
  have n0 := h0.ne'
  have n1 := h1.ne'
  have n2 := h2.ne'
  simp only [V, DGDP, D2GDR0DP]
  refine HasDerivAt.congr_deriv (by hd) ?_
  all_goals first | ring1 | (field_simp; done) | (field_simp; ring1)

theorem DGDP_d1 (t p r0 r1 : ℝ) (h0 : 0 < r0) (h1 : 0 < r1) (h2 : 0 < 1 - r0 - r1) :
    HasDerivAt (fun r1 => DGDP t p r0 r1 r0 r1 (1 - r0 - r1)) (D2GDR1DP t p r0 r1 r0 r1 (1 - r0 - r1)) r1 := by
  have n0 := h0.ne'
  have n1 := h1.ne'
  have n2 := h2.ne'
  simp only [V, DGDP, D2GDR1DP]
  refine HasDerivAt.congr_deriv (by hd) ?_
  all_goals first | ring1 | (field_simp; done) | (field_simp; ring1)

theorem DGDP_diff (t p : ℝ) (r : Fin 2 → ℝ) (h0 : 0 < r 0) (h1 : 0 < r 1) (h2 : 0 < 1 - r 0 - r 1) :
    DifferentiableAt ℝ (fun r : Fin 2 → ℝ => DGDP t p (r 0) (r 1) (r 0) (r 1) (1 - r 0 - r 1)) r := by
  have n0 := h0.ne'
  have n1 := h1.ne'
  have n2 := h2.ne'
  simp only [V, DGDP]
  dd

theorem D2GDR0DP_d0 (t p r0 r1 : ℝ) (h0 : 0 < r0) (h1 : 0 < r1) (h2 : 0 < 1 - r0 - r1) :
    HasDerivAt (fun r0 => D2GDR0DP t p r0 r1 r0 r1 (1 - r0 - r1)) (D3GDR0R0DP t p r0 r1 r0 r1 (1 - r0 - r1)) r0 := by
  have n0 := h0.ne'
  have n1 := h1.ne'
  have n2 := h2.ne'
  simp only [D2GDR0DP, D3GDR0R0DP]
  refine HasDerivAt.congr_deriv (by hd) ?_
  all_goals first | ring1 | (field_simp; done) | (field_simp; ring1)

theorem D2GDR0DP_d1 (t p r0 r1 : ℝ) (h0 : 0 < r0) (h1 : 0 < r1) (h2 : 0 < 1 - r0 - r1) :
    HasDerivAt (fun r1 => D2GDR0DP t p r0 r1 r0 r1 (1 - r0 - r1)) (D3GDR0R1DP t p r0 r1 r0 r1 (1 - r0 - r1)) r1 := by
  have n0 := h0.ne'
  have n1 := h1.ne'
  have n2 := h2.ne'
  simp only [D2GDR0DP, D3GDR0R1DP]
  refine HasDerivAt.congr_deriv (by hd) ?_
  all_goals first | ring1 | (field_simp; done) | (field_simp; ring1)

theorem D2GDR0DP_diff (t p : ℝ) (r : Fin 2 → ℝ) (h0 : 0 < r 0) (h1 : 0 < r 1) (h2 : 0 < 1 - r 0 - r 1) :
    DifferentiableAt ℝ (fun r : Fin 2 → ℝ => D2GDR0DP t p (r 0) (r 1) (r 0) (r 1) (1 - r 0 - r 1)) r := by
  have n0 := h0.ne'
  have n1 := h1.ne'
  have n2 := h2.ne'
  simp only [D2GDR0DP]
  dd

theorem D2GDR1DP_d0 (t p r0 r1 : ℝ) (h0 : 0 < r0) (h1 : 0 < r1) (h2 : 0 < 1 - r0 - r1) :
    HasDerivAt (fun r0 => D2GDR1DP t p r0 r1 r0 r1 (1 - r0 - r1)) (D3GDR0R1DP t p r0 r1 r0 r1 (1 - r0 - r1)) r0 := by
  have n0 := h0.ne'
  have n1 := h1.ne'
  have n2 := h2.ne'
  simp only [D2GDR1DP, D3GDR0R1DP]
  refine HasDerivAt.congr_deriv (by hd) ?_
  all_goals first | ring1 | (field_simp; done) | (field_simp; ring1)

theorem D2GDR1DP_d1 (t p r0 r1 : ℝ) (h0 : 0 < r0) (h1 : 0 < r1) (h2 : 0 < 1 - r0 - r1) :
    HasDerivAt (fun r1 => D2GDR1DP t p r0 r1 r0 r1 (1 - r0 - r1)) (D3GDR1R1DP t p r0 r1 r0 r1 (1 - r0 - r1)) r1 := by
  have n0 := h0.ne'
  have n1 := h1.ne'
  have n2 := h2.ne'
  simp only [D2GDR1DP, D3GDR1R1DP]
  refine HasDerivAt.congr_deriv (by hd) ?_
  all_goals first | ring1 | (field_simp; done) | (field_simp; ring1)

theorem D2GDR1DP_diff (t p : ℝ) (r : Fin 2 → ℝ) (h0 : 0 < r 0) (h1 : 0 < r 1) (h2 : 0 < 1 - r 0 - r 1) :
    DifferentiableAt ℝ (fun r : Fin 2 → ℝ => D2GDR1DP t p (r 0) (r 1) (r 0) (r 1) (1 - r 0 - r 1)) r := by
  have n0 := h0.ne'
  have n1 := h1.ne'
  have n2 := h2.ne'
  simp only [D2GDR1DP]
  dd

set_option maxHeartbeats 1600000 in
theorem consistent_raw : (ofSites F raw).Consistent (Interior raw) := by
  have posr : ∀ r, Interior raw r → ∀ k, 0 < raw r k := fun r hr k => lt_trans eps_pos (hr k)
  constructor
  · intro t p r hr
    have pos := posr r hr
    refine grad_of_partials (G_diff t p r (pos 0) (pos 1) (pos 2)) fun j => partial_of_update ?_
    fin_cases j
    · exact (G_d0 t p (r 0) (r 1) (pos 0) (pos 1) (pos 2))
    · exact (G_d1 t p (r 0) (r 1) (pos 0) (pos 1) (pos 2))
  · intro t p r hr i
    have pos := posr r hr
    fin_cases i
    · skip
      refine grad_of_partials (DGDR0_diff t p r (pos 0) (pos 1) (pos 2)) fun j => partial_of_update ?_
      fin_cases j
      · exact (DGDR0_d0 t p (r 0) (r 1) (pos 0) (pos 1) (pos 2))
      · exact (DGDR0_d1 t p (r 0) (r 1) (pos 0) (pos 1) (pos 2))
    · skip
      refine grad_of_partials (DGDR1_diff t p r (pos 0) (pos 1) (pos 2)) fun j => partial_of_update ?_
      fin_cases j
      · exact (DGDR1_d0 t p (r 0) (r 1) (pos 0) (pos 1) (pos 2))
      · exact (DGDR1_d1 t p (r 0) (r 1) (pos 0) (pos 1) (pos 2))
  · intro t p r hr i j
    have pos := posr r hr
    fin_cases i <;> fin_cases j
    · skip
      refine grad_of_partials (D2GDR0R0_diff t p r (pos 0) (pos 1) (pos 2)) fun j => partial_of_update ?_
      fin_cases j
      · exact (D2GDR0R0_d0 t p (r 0) (r 1) (pos 0) (pos 1) (pos 2))
      · exact (D2GDR0R0_d1 t p (r 0) (r 1) (pos 0) (pos 1) (pos 2))
    · skip
      refine grad_of_partials (D2GDR0R1_diff t p r (pos 0) (pos 1) (pos 2)) fun j => partial_of_update ?_
      fin_cases j
      · exact (D2GDR0R1_d0 t p (r 0) (r 1) (pos 0) (pos 1) (pos 2))
      · exact (D2GDR0R1_d1 t p (r 0) (r 1) (pos 0) (pos 1) (pos 2))
    · skip
      refine grad_of_partials (D2GDR0R1_diff t p r (pos 0) (pos 1) (pos 2)) fun j => partial_of_update ?_
      fin_cases j
      · exact (D2GDR0R1_d0 t p (r 0) (r 1) (pos 0) (pos 1) (pos 2))
      · exact (D2GDR0R1_d1 t p (r 0) (r 1) (pos 0) (pos 1) (pos 2))
    · skip
      refine grad_of_partials (D2GDR1R1_diff t p r (pos 0) (pos 1) (pos 2)) fun j => partial_of_update ?_
      fin_cases j
      · exact (D2GDR1R1_d0 t p (r 0) (r 1) (pos 0) (pos 1) (pos 2))
      · exact (D2GDR1R1_d1 t p (r 0) (r 1) (pos 0) (pos 1) (pos 2))
  · intro t p r hr
    simp only [ofSites, F, H, S, V, G]
    refine HasDerivAt.congr_deriv (by hd) ?_
    ring
  · intro t p r hr; rfl
  · intro t p r hr
    have pos := posr r hr
    refine grad_of_partials (S_diff t p r (pos 0) (pos 1) (pos 2)) fun j => partial_of_update ?_
    fin_cases j
    · exact S_d0 t p (r 0) (r 1) (pos 0) (pos 1) (pos 2)
    · exact S_d1 t p (r 0) (r 1) (pos 0) (pos 1) (pos 2)
  · intro t p r hr i
    have pos := posr r hr
    fin_cases i
    · skip
      refine grad_of_partials ((D2GDR0DT_diff t p r (pos 0) (pos 1) (pos 2)).fun_neg) fun j => partial_of_update ?_
      fin_cases j
      · exact ((D2GDR0DT_d0 t p (r 0) (r 1) (pos 0) (pos 1) (pos 2))).fun_neg
      · exact ((D2GDR0DT_d1 t p (r 0) (r 1) (pos 0) (pos 1) (pos 2))).fun_neg
    · skip
      refine grad_of_partials ((D2GDR1DT_diff t p r (pos 0) (pos 1) (pos 2)).fun_neg) fun j => partial_of_update ?_
      fin_cases j
      · exact ((D2GDR1DT_d0 t p (r 0) (r 1) (pos 0) (pos 1) (pos 2))).fun_neg
      · exact ((D2GDR1DT_d1 t p (r 0) (r 1) (pos 0) (pos 1) (pos 2))).fun_neg
  · intro t p r hr
    simp only [ofSites, F, H, S, V, G, D2GDT2]
    refine HasDerivAt.congr_deriv (by hd) ?_
    ring
  · intro t p r hr
    simp only [ofSites, F, D2GDT2, D3GDT3]
    refine HasDerivAt.congr_deriv (by hd) ?_
    ring
  · intro t p r hr
    refine grad_of_partials ?_ fun j => partial_of_update ?_
    · simp only [ofSites, F, D2GDT2]; dd
    · fin_cases j
      · change HasDerivAt (fun _ : ℝ => -t * (0 : ℝ)) (-t * (0 : ℝ)) _
        exact (hasDerivAt_const _ _).congr_deriv (by ring)
      · change HasDerivAt (fun _ : ℝ => -t * (0 : ℝ)) (-t * (0 : ℝ)) _
        exact (hasDerivAt_const _ _).congr_deriv (by ring)
  · intro t p r hr
    simp only [ofSites, F, H, S, V, G, DGDP]
    refine HasDerivAt.congr_deriv (by hd) ?_
    ring
  · intro t p r hr
    have pos := posr r hr
    refine grad_of_partials (DGDP_diff t p r (pos 0) (pos 1) (pos 2)) fun j => partial_of_update ?_
    fin_cases j
    · exact (DGDP_d0 t p (r 0) (r 1) (pos 0) (pos 1) (pos 2))
    · exact (DGDP_d1 t p (r 0) (r 1) (pos 0) (pos 1) (pos 2))
  · intro t p r hr i
    have pos := posr r hr
    fin_cases i
    · skip
      refine grad_of_partials (D2GDR0DP_diff t p r (pos 0) (pos 1) (pos 2)) fun j => partial_of_update ?_
      fin_cases j
      · exact (D2GDR0DP_d0 t p (r 0) (r 1) (pos 0) (pos 1) (pos 2))
      · exact (D2GDR0DP_d1 t p (r 0) (r 1) (pos 0) (pos 1) (pos 2))
    · skip
      refine grad_of_partials (D2GDR1DP_diff t p r (pos 0) (pos 1) (pos 2)) fun j => partial_of_update ?_
      fin_cases j
      · exact (D2GDR1DP_d0 t p (r 0) (r 1) (pos 0) (pos 1) (pos 2))
      · exact (D2GDR1DP_d1 t p (r 0) (r 1) (pos 0) (pos 1) (pos 2))
  · intro t p r hr
    simp only [ofSites, F, V, DGDP, D2GDTDP]
    refine HasDerivAt.congr_deriv (by hd) ?_
    ring
  · intro t p r hr
    simp only [ofSites, F, V, DGDP, D2GDP2]
    refine HasDerivAt.congr_deriv (by hd) ?_
    ring
  · intro t p r hr
    simp only [ofSites, F, D2GDTDP, D3GDT2DP]
    refine HasDerivAt.congr_deriv (by hd) ?_
    ring
  · intro t p r hr
    simp only [ofSites, F, D2GDTDP, D3GDTDP2]
    refine HasDerivAt.congr_deriv (by hd) ?_
    ring
  · intro t p r hr
    simp only [ofSites, F, D2GDP2, D3GDP3]
    refine HasDerivAt.congr_deriv (by hd) ?_
    ring
  · intro t p r hr i
    fin_cases i
    · change HasDerivAt (fun t => D2GDR0DP t p (r 0) (r 1) (raw r 0) (raw r 1) (raw r 2)) (D3GDR0DTDP t p (r 0) (r 1) (raw r 0) (raw r 1) (raw r 2)) t
      simp only [D2GDR0DP, D3GDR0DTDP]
      refine HasDerivAt.congr_deriv (by hd) ?_
      ring
    · change HasDerivAt (fun t => D2GDR1DP t p (r 0) (r 1) (raw r 0) (raw r 1) (raw r 2)) (D3GDR1DTDP t p (r 0) (r 1) (raw r 0) (raw r 1) (raw r 2)) t
      simp only [D2GDR1DP, D3GDR1DTDP]
      refine HasDerivAt.congr_deriv (by hd) ?_
      ring
  · intro t p r hr i
    fin_cases i
    · change HasDerivAt (fun p => D2GDR0DP t p (r 0) (r 1) (raw r 0) (raw r 1) (raw r 2)) (D3GDR0DP2 t p (r 0) (r 1) (raw r 0) (raw r 1) (raw r 2)) p
      simp only [D2GDR0DP, D3GDR0DP2]
      refine HasDerivAt.congr_deriv (by hd) ?_
      ring
    · change HasDerivAt (fun p => D2GDR1DP t p (r 0) (r 1) (raw r 0) (raw r 1) (raw r 2)) (D3GDR1DP2 t p (r 0) (r 1) (raw r 0) (raw r 1) (raw r 2)) p
      simp only [D2GDR1DP, D3GDR1DP2]
      refine HasDerivAt.congr_deriv (by hd) ?_
      ring
  · intro t p r hr i
    fin_cases i
    · change HasDerivAt (fun t => DGDR0 t p (r 0) (r 1) (raw r 0) (raw r 1) (raw r 2)) (-(-(D2GDR0DT t p (r 0) (r 1) (raw r 0) (raw r 1) (raw r 2)))) t
      simp only [WG112, WG122, WG113, WG133, WG223, WG233, WG123, DGDR0, D2GDR0DT]
      refine HasDerivAt.congr_deriv (by hd) ?_
      ring
    · change HasDerivAt (fun t => DGDR1 t p (r 0) (r 1) (raw r 0) (raw r 1) (raw r 2)) (-(-(D2GDR1DT t p (r 0) (r 1) (raw r 0) (raw r 1) (raw r 2)))) t
      simp only [WG112, WG122, WG113, WG133, WG223, WG233, WG123, DGDR1, D2GDR1DT]
      refine HasDerivAt.congr_deriv (by hd) ?_
      ring
  · intro t p r hr i
    fin_cases i
    · change HasDerivAt (fun p => DGDR0 t p (r 0) (r 1) (raw r 0) (raw r 1) (raw r 2)) (D2GDR0DP t p (r 0) (r 1) (raw r 0) (raw r 1) (raw r 2)) p
      simp only [WG112, WG122, WG113, WG133, WG223, WG233, WG123, DGDR0, D2GDR0DP]
      refine HasDerivAt.congr_deriv (by hd) ?_
      ring
    · change HasDerivAt (fun p => DGDR1 t p (r 0) (r 1) (raw r 0) (raw r 1) (raw r 2)) (D2GDR1DP t p (r 0) (r 1) (raw r 0) (raw r 1) (raw r 2)) p
      simp only [WG112, WG122, WG113, WG133, WG223, WG233, WG123, DGDR1, D2GDR1DP]
      refine HasDerivAt.congr_deriv (by hd) ?_
      ring
  · intro t p r hr h0 i
    fin_cases i
    · change HasDerivAt (fun t => -(D2GDR0DT t p (r 0) (r 1) (raw r 0) (raw r 1) (raw r 2))) (-t * (D3GDR0DT2 t p (r 0) (r 1) (raw r 0) (raw r 1) (raw r 2)) / t) t
      simp only [D2GDR0DT, D3GDR0DT2]
      refine HasDerivAt.congr_deriv (by hd) ?_
      first | ring | (field_simp; ring)
    · change HasDerivAt (fun t => -(D2GDR1DT t p (r 0) (r 1) (raw r 0) (raw r 1) (raw r 2))) (-t * (D3GDR1DT2 t p (r 0) (r 1) (raw r 0) (raw r 1) (raw r 2)) / t) t
      simp only [D2GDR1DT, D3GDR1DT2]
      refine HasDerivAt.congr_deriv (by hd) ?_
      first | ring | (field_simp; ring)
  · intro t p r hr
    refine grad_of_partials ?_ fun j => partial_of_update ?_
    · simp only [ofSites, F, D2GDP2]; dd
    · fin_cases j
      · change HasDerivAt (fun _ : ℝ => (0 : ℝ)) (0 : ℝ) _
        exact hasDerivAt_const _ _
      · change HasDerivAt (fun _ : ℝ => (0 : ℝ)) (0 : ℝ) _
        exact hasDerivAt_const _ _
  · intro t p r hr i j; fin_cases i <;> fin_cases j <;> rfl
  · intro t p r hr i j k; fin_cases i <;> fin_cases j <;> fin_cases k <;> exact ⟨rfl, rfl⟩
  · intro r hr; funext i; fin_cases i <;> rfl

theorem raw_continuous (k : Fin 3) : Continuous fun r => raw r k := by
  fin_cases k
  · change Continuous fun r : Fin 2 → ℝ => r 0
    fun_prop
  · change Continuous fun r : Fin 2 → ℝ => r 1
    fun_prop
  · change Continuous fun r : Fin 2 → ℝ => 1 - r 0 - r 1
    fun_prop

theorem consistent : mix.Consistent (Interior raw) := consistent_clamp F raw raw_continuous consistent_raw

/-- The dependent end member of garnet.c. -/
def dep : Fin 3 := 2

end Garnet

/-- **C24.** Garnet (garnet.c): derivatives, entropy, enthalpy, heat capacity and volume of mixing fit together. -/
theorem C24_garnet : Garnet.mix.Consistent (Interior Garnet.raw) := Garnet.consistent

/-- The interior contains the composition 1 / 4, 1 / 4. -/
example : Interior Garnet.raw ![1 / 4, 1 / 4] := by
  intro k
  fin_cases k
  · change ((1 / 4) : ℝ) > eps; unfold eps; norm_num
  · change ((1 / 4) : ℝ) > eps; unfold eps; norm_num
  · change (1 - (1 / 4) - (1 / 4) : ℝ) > eps; unfold eps; norm_num

/-- **C24.** The chemical potentials `act*` returns are the derivatives of the total Gibbs energy of mixing. -/
theorem C24_garnet_potentials (t p : ℝ) (m : Fin 3 → ℝ) (h0 : ∑ i, m i ≠ 0)
    (hr : Interior Garnet.raw (toR Garnet.dep m)) (i : Fin 3) :
    Partial (fun m => (∑ i, m i) * Garnet.mix.g t p (toR Garnet.dep m)) m i
      (mu Garnet.mix Garnet.dep t p (toR Garnet.dep m) i) :=
  C24_potential_is_derivative _ _ Garnet.consistent _ t p m h0 hr i

/-- **C24.** The derivatives of the activities `act*` returns are their derivatives. -/
theorem C24_garnet_activities (t p : ℝ) (r : Fin 2 → ℝ) (hr : Interior Garnet.raw r) (i : Fin 3)
    (k : Fin 2) : Partial (fun r => act Garnet.mix Garnet.dep t p r i) r k (dact Garnet.mix Garnet.dep t p r i k) :=
  C24_activity_derivative _ _ Garnet.consistent (isOpen_interior _ Garnet.raw_continuous) _ t p r hr i k

end

end Magma.Thermo.Mixing
