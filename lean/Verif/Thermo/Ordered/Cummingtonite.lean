import Verif.Thermo.OrderTables

/-!
Cummingtonite. Generated by /verif/tools/gen/genord.py from the macros of /repo/sources/cummingtonite.c: one definition per macro, with the
macros it mentions as definitions (the generator checks that this has the value of C's textual substitution).
-/

namespace Verif.Thermo.Ordering

open Magma.Thermo.Mixing (R)

noncomputable section

set_option linter.unusedVariables false
set_option linter.unnecessarySeqFocus false
set_option linter.unusedSimpArgs false
set_option linter.unusedTactic false
set_option linter.unreachableTactic false

namespace Cummingtonite

/-- `S`, cummingtonite.c 451-453. -/
def S (xfe2m4 xfe2m13 xfe2m2 xmg2m4 xmg2m13 xmg2m2 : ℝ) : ℝ :=
  (-R) * (2 * xfe2m4 * Real.log xfe2m4 + 2 * xmg2m4 * Real.log xmg2m4 + 3 * xfe2m13 * Real.log xfe2m13 + 3 *
    xmg2m13 * Real.log xmg2m13 + 2 * xfe2m2 * Real.log xfe2m2 + 2 * xmg2m2 * Real.log xmg2m2)

/-- `WH123`, cummingtonite.c 119. -/
def WH123 : ℝ :=
  (127891 / 25)

/-- `WH4`, cummingtonite.c 122. -/
def WH4 : ℝ :=
  (88988 / 25)

/-- `HX123_4`, cummingtonite.c 123. -/
def HX123_4 : ℝ :=
  (60514 / 5)

/-- `H0`, cummingtonite.c 153. -/
def H0 : ℝ :=
  5 * WH123 / 4 + WH4 / 2 + HX123_4 / 4

/-- `HR`, cummingtonite.c 154. -/
def HR : ℝ :=
  0

/-- `HEX`, cummingtonite.c 117. -/
def HEX : ℝ :=
  -25856

/-- `HDEX`, cummingtonite.c 118. -/
def HDEX : ℝ :=
  5905

/-- `HS13`, cummingtonite.c 155. -/
def HS13 : ℝ :=
  3 * HEX / 5 + HDEX

/-- `HS2`, cummingtonite.c 156. -/
def HS2 : ℝ :=
  2 * HEX / 5 - HDEX

/-- `HRR`, cummingtonite.c 157. -/
def HRR : ℝ :=
  (-5) * WH123 / 4 - WH4 / 2 - HX123_4 / 4

/-- `WH13`, cummingtonite.c 120. -/
def WH13 : ℝ :=
  (459211 / 100)

/-- `HX13_24`, cummingtonite.c 125. -/
def HX13_24 : ℝ :=
  (32961 / 10)

/-- `HRS13`, cummingtonite.c 158-159. -/
def HRS13 : ℝ :=
  (-15) * WH123 / 7 + 3 * WH13 - 6 * WH4 / 7 - 3 * HX123_4 / 7 + HX13_24 / 2

/-- `WH2`, cummingtonite.c 121. -/
def WH2 : ℝ :=
  (108107 / 25)

/-- `HX134_2`, cummingtonite.c 124. -/
def HX134_2 : ℝ :=
  (151133 / 10)

/-- `HRS2`, cummingtonite.c 160-161. -/
def HRS2 : ℝ :=
  (-10) * WH123 / 7 + 2 * WH2 - 4 * WH4 / 7 - 2 * HX123_4 / 7 + HX134_2 / 2

/-- `HS13S13`, cummingtonite.c 162-163. -/
def HS13S13 : ℝ :=
  (-45) * WH123 / 49 - 3 * WH13 / 7 - 18 * WH4 / 49 - 9 * HX123_4 / 49 + 3 * HX13_24 / 7

/-- `HS13S2`, cummingtonite.c 164-165. -/
def HS13S2 : ℝ :=
  (-60) * WH123 / 49 + 12 * WH13 / 7 + 12 * WH2 / 7 - 24 * WH4 / 49 + 25 * HX123_4 / 98 - 3 * HX13_24 / 14 -
    HX134_2 / 14

/-- `HS2S2`, cummingtonite.c 166-167. -/
def HS2S2 : ℝ :=
  (-20) * WH123 / 49 - 6 * WH2 / 7 - 8 * WH4 / 49 - 4 * HX123_4 / 49 + 2 * HX134_2 / 7

/-- `H`, cummingtonite.c 454-456. -/
def H (r0 s0 s1 : ℝ) : ℝ :=
  H0 + HR * r0 + HS13 * s0 + HS2 * s1 + HRR * r0 * r0 + HRS13 * r0 * s0 + HRS2 * r0 * s1 + HS13S13 * s0 * s0 +
    HS13S2 * s0 * s1 + HS2S2 * s1 * s1

/-- `WV123`, cummingtonite.c 129. -/
def WV123 : ℝ :=
  0

/-- `WV4`, cummingtonite.c 132. -/
def WV4 : ℝ :=
  0

/-- `VX123_4`, cummingtonite.c 133. -/
def VX123_4 : ℝ :=
  0

/-- `V0`, cummingtonite.c 169. -/
def V0 : ℝ :=
  5 * WV123 / 4 + WV4 / 2 + VX123_4 / 4

/-- `VR`, cummingtonite.c 170. -/
def VR : ℝ :=
  0

/-- `VEX`, cummingtonite.c 127. -/
def VEX : ℝ :=
  0

/-- `VDEX`, cummingtonite.c 128. -/
def VDEX : ℝ :=
  0

/-- `VS13`, cummingtonite.c 171. -/
def VS13 : ℝ :=
  3 * VEX / 5 + VDEX

/-- `VS2`, cummingtonite.c 172. -/
def VS2 : ℝ :=
  2 * VEX / 5 - VDEX

/-- `VRR`, cummingtonite.c 173. -/
def VRR : ℝ :=
  (-5) * WV123 / 4 - WV4 / 2 - VX123_4 / 4

/-- `WV13`, cummingtonite.c 130. -/
def WV13 : ℝ :=
  0

/-- `VX13_24`, cummingtonite.c 135. -/
def VX13_24 : ℝ :=
  0

/-- `VRS13`, cummingtonite.c 174-175. -/
def VRS13 : ℝ :=
  (-15) * WV123 / 7 + 3 * WV13 - 6 * WV4 / 7 - 3 * VX123_4 / 7 + VX13_24 / 2

/-- `WV2`, cummingtonite.c 131. -/
def WV2 : ℝ :=
  0

/-- `VX134_2`, cummingtonite.c 134. -/
def VX134_2 : ℝ :=
  0

/-- `VRS2`, cummingtonite.c 176-177. -/
def VRS2 : ℝ :=
  (-10) * WV123 / 7 + 2 * WV2 - 4 * WV4 / 7 - 2 * VX123_4 / 7 + VX134_2 / 2

/-- `VS13S13`, cummingtonite.c 178-179. -/
def VS13S13 : ℝ :=
  (-45) * WV123 / 49 - 3 * WV13 / 7 - 18 * WV4 / 49 - 9 * VX123_4 / 49 + 3 * VX13_24 / 7

/-- `VS13S2`, cummingtonite.c 180-181. -/
def VS13S2 : ℝ :=
  (-60) * WV123 / 49 + 12 * WV13 / 7 + 12 * WV2 / 7 - 24 * WV4 / 49 + 25 * VX123_4 / 98 - 3 * VX13_24 / 14 -
    VX134_2 / 14

/-- `VS2S2`, cummingtonite.c 182-183. -/
def VS2S2 : ℝ :=
  (-20) * WV123 / 49 - 6 * WV2 / 7 - 8 * WV4 / 49 - 4 * VX123_4 / 49 + 2 * VX134_2 / 7

/-- `V`, cummingtonite.c 457-459. -/
def V (r0 s0 s1 : ℝ) : ℝ :=
  V0 + VR * r0 + VS13 * s0 + VS2 * s1 + VRR * r0 * r0 + VRS13 * r0 * s0 + VRS2 * r0 * s1 + VS13S13 * s0 * s0 +
    VS13S2 * s0 * s1 + VS2S2 * s1 * s1

/-- `G`, cummingtonite.c 460. -/
def G (t p r0 s0 s1 xfe2m4 xfe2m13 xfe2m2 xmg2m4 xmg2m13 xmg2m2 : ℝ) : ℝ :=
  H r0 s0 s1 - t * (S xfe2m4 xfe2m13 xfe2m2 xmg2m4 xmg2m13 xmg2m2) + (p - 1) * (V r0 s0 s1)

/-- `GR`, cummingtonite.c 186. -/
def GR : ℝ :=
  0

/-- `WG123`, cummingtonite.c 139. -/
def WG123 (p : ℝ) : ℝ :=
  WH123 + (p - 1) * WV123

/-- `WG4`, cummingtonite.c 142. -/
def WG4 (p : ℝ) : ℝ :=
  WH4 + (p - 1) * WV4

/-- `GX123_4`, cummingtonite.c 143. -/
def GX123_4 (p : ℝ) : ℝ :=
  HX123_4 + (p - 1) * VX123_4

/-- `GRR`, cummingtonite.c 189. -/
def GRR (p : ℝ) : ℝ :=
  (-5) * (WG123 p) / 4 - (WG4 p) / 2 - (GX123_4 p) / 4

/-- `WG13`, cummingtonite.c 140. -/
def WG13 (p : ℝ) : ℝ :=
  WH13 + (p - 1) * WV13

/-- `GX13_24`, cummingtonite.c 145. -/
def GX13_24 (p : ℝ) : ℝ :=
  HX13_24 + (p - 1) * VX13_24

/-- `GRS13`, cummingtonite.c 190-191. -/
def GRS13 (p : ℝ) : ℝ :=
  (-15) * (WG123 p) / 7 + 3 * (WG13 p) - 6 * (WG4 p) / 7 - 3 * (GX123_4 p) / 7 + (GX13_24 p) / 2

/-- `WG2`, cummingtonite.c 141. -/
def WG2 (p : ℝ) : ℝ :=
  WH2 + (p - 1) * WV2

/-- `GX134_2`, cummingtonite.c 144. -/
def GX134_2 (p : ℝ) : ℝ :=
  HX134_2 + (p - 1) * VX134_2

/-- `GRS2`, cummingtonite.c 192-193. -/
def GRS2 (p : ℝ) : ℝ :=
  (-10) * (WG123 p) / 7 + 2 * (WG2 p) - 4 * (WG4 p) / 7 - 2 * (GX123_4 p) / 7 + (GX134_2 p) / 2

/-- `DGDR0`, cummingtonite.c 464-467. -/
def DGDR0 (t p r0 s0 s1 xfe2m4 xfe2m13 xfe2m2 xmg2m4 xmg2m13 xmg2m2 : ℝ) : ℝ :=
  R * t * (Real.log xfe2m4 - Real.log xmg2m4 + 3 * Real.log xfe2m13 / 2 - 3 * Real.log xmg2m13 / 2 + Real.log
    xfe2m2 - Real.log xmg2m2) + GR + 2 * (GRR p) * r0 + (GRS13 p) * s0 + (GRS2 p) * s1

/-- `GEX`, cummingtonite.c 137. -/
def GEX (p : ℝ) : ℝ :=
  HEX + (p - 1) * VEX

/-- `GDEX`, cummingtonite.c 138. -/
def GDEX (p : ℝ) : ℝ :=
  HDEX + (p - 1) * VDEX

/-- `GS13`, cummingtonite.c 187. -/
def GS13 (p : ℝ) : ℝ :=
  3 * (GEX p) / 5 + (GDEX p)

/-- `GS13S13`, cummingtonite.c 194-195. -/
def GS13S13 (p : ℝ) : ℝ :=
  (-45) * (WG123 p) / 49 - 3 * (WG13 p) / 7 - 18 * (WG4 p) / 49 - 9 * (GX123_4 p) / 49 + 3 * (GX13_24 p) / 7

/-- `GS13S2`, cummingtonite.c 196-197. -/
def GS13S2 (p : ℝ) : ℝ :=
  (-60) * (WG123 p) / 49 + 12 * (WG13 p) / 7 + 12 * (WG2 p) / 7 - 24 * (WG4 p) / 49 + 25 * (GX123_4 p) / 98 -
    3 * (GX13_24 p) / 14 - (GX134_2 p) / 14

/-- `DGDS0`, cummingtonite.c 468-471. -/
def DGDS0 (t p r0 s0 s1 xfe2m4 xfe2m13 xfe2m2 xmg2m4 xmg2m13 xmg2m2 : ℝ) : ℝ :=
  R * t * (6 * Real.log xfe2m4 / 7 - 6 * Real.log xmg2m4 / 7 - 12 * Real.log xfe2m13 / 7 + 12 * Real.log
    xmg2m13 / 7 + 6 * Real.log xfe2m2 / 7 - 6 * Real.log xmg2m2 / 7) + (GS13 p) + (GRS13 p) * r0 + 2 * (GS13S13
    p) * s0 + (GS13S2 p) * s1

/-- `GS2`, cummingtonite.c 188. -/
def GS2 (p : ℝ) : ℝ :=
  2 * (GEX p) / 5 - (GDEX p)

/-- `GS2S2`, cummingtonite.c 198-199. -/
def GS2S2 (p : ℝ) : ℝ :=
  (-20) * (WG123 p) / 49 - 6 * (WG2 p) / 7 - 8 * (WG4 p) / 49 - 4 * (GX123_4 p) / 49 + 2 * (GX134_2 p) / 7

/-- `DGDS1`, cummingtonite.c 472-475. -/
def DGDS1 (t p r0 s0 s1 xfe2m4 xfe2m13 xfe2m2 xmg2m4 xmg2m13 xmg2m2 : ℝ) : ℝ :=
  R * t * (4 * Real.log xfe2m4 / 7 - 4 * Real.log xmg2m4 / 7 + 6 * Real.log xfe2m13 / 7 - 6 * Real.log xmg2m13
    / 7 - 10 * Real.log xfe2m2 / 7 + 10 * Real.log xmg2m2 / 7) + (GS2 p) + (GRS2 p) * r0 + (GS13S2 p) * s0 + 2 *
    (GS2S2 p) * s1

/-- `DGDT`, cummingtonite.c 476. -/
def DGDT (xfe2m4 xfe2m13 xfe2m2 xmg2m4 xmg2m13 xmg2m2 : ℝ) : ℝ :=
  -(S xfe2m4 xfe2m13 xfe2m2 xmg2m4 xmg2m13 xmg2m2)

/-- `DGDP`, cummingtonite.c 477. -/
def DGDP (r0 s0 s1 : ℝ) : ℝ :=
  V r0 s0 s1

/-- `D2GDR0R0`, cummingtonite.c 481-482. -/
def D2GDR0R0 (t p xfe2m4 xfe2m13 xfe2m2 xmg2m4 xmg2m13 xmg2m2 : ℝ) : ℝ :=
  R * t * ((1 / 2) / xfe2m4 + (1 / 2) / xmg2m4 + (3 / 4) / xfe2m13 + (3 / 4) / xmg2m13 + (1 / 2) / xfe2m2 + (1
    / 2) / xmg2m2) + 2 * (GRR p)

/-- `D2GDR0S0`, cummingtonite.c 483-485. -/
def D2GDR0S0 (t p xfe2m4 xfe2m13 xfe2m2 xmg2m4 xmg2m13 xmg2m2 : ℝ) : ℝ :=
  R * t * (3 / 7 / xfe2m4 + 3 / 7 / xmg2m4 - 6 / 7 / xfe2m13 - 6 / 7 / xmg2m13 + 3 / 7 / xfe2m2 + 3 / 7 /
    xmg2m2) + (GRS13 p)

/-- `D2GDR0S1`, cummingtonite.c 486-488. -/
def D2GDR0S1 (t p xfe2m4 xfe2m13 xfe2m2 xmg2m4 xmg2m13 xmg2m2 : ℝ) : ℝ :=
  R * t * (2 / 7 / xfe2m4 + 2 / 7 / xmg2m4 + 3 / 7 / xfe2m13 + 3 / 7 / xmg2m13 - 5 / 7 / xfe2m2 - 5 / 7 /
    xmg2m2) + (GRS2 p)

/-- `D2GDR0DT`, cummingtonite.c 489-491. -/
def D2GDR0DT (xfe2m4 xfe2m13 xfe2m2 xmg2m4 xmg2m13 xmg2m2 : ℝ) : ℝ :=
  R * (Real.log xfe2m4 - Real.log xmg2m4 + 3 * Real.log xfe2m13 / 2 - 3 * Real.log xmg2m13 / 2 + Real.log
    xfe2m2 - Real.log xmg2m2)

/-- `D2GDR0DP`, cummingtonite.c 492. -/
def D2GDR0DP (r0 s0 s1 : ℝ) : ℝ :=
  VR + 2 * VRR * r0 + VRS13 * s0 + VRS2 * s1

/-- `D2GDS0S0`, cummingtonite.c 494-497. -/
def D2GDS0S0 (t p xfe2m4 xfe2m13 xfe2m2 xmg2m4 xmg2m13 xmg2m2 : ℝ) : ℝ :=
  R * t * (18 / 49 / xfe2m4 + 18 / 49 / xmg2m4 + 48 / 49 / xfe2m13 + 48 / 49 / xmg2m13 + 18 / 49 / xfe2m2 + 18
    / 49 / xmg2m2) + 2 * (GS13S13 p)

/-- `D2GDS0S1`, cummingtonite.c 498-501. -/
def D2GDS0S1 (t p xfe2m4 xfe2m13 xfe2m2 xmg2m4 xmg2m13 xmg2m2 : ℝ) : ℝ :=
  R * t * (12 / 49 / xfe2m4 + 12 / 49 / xmg2m4 - 24 / 49 / xfe2m13 - 24 / 49 / xmg2m13 - 30 / 49 / xfe2m2 - 30
    / 49 / xmg2m2) + (GS13S2 p)

/-- `D2GDS0DT`, cummingtonite.c 502-504. -/
def D2GDS0DT (xfe2m4 xfe2m13 xfe2m2 xmg2m4 xmg2m13 xmg2m2 : ℝ) : ℝ :=
  R * (6 * Real.log xfe2m4 / 7 - 6 * Real.log xmg2m4 / 7 - 12 * Real.log xfe2m13 / 7 + 12 * Real.log xmg2m13 /
    7 + 6 * Real.log xfe2m2 / 7 - 6 * Real.log xmg2m2 / 7)

/-- `D2GDS0DP`, cummingtonite.c 505. -/
def D2GDS0DP (r0 s0 s1 : ℝ) : ℝ :=
  VS13 + VRS13 * r0 + 2 * VS13S13 * s0 + VS13S2 * s1

/-- `D2GDS1S1`, cummingtonite.c 507-510. -/
def D2GDS1S1 (t p xfe2m4 xfe2m13 xfe2m2 xmg2m4 xmg2m13 xmg2m2 : ℝ) : ℝ :=
  R * t * (8 / 49 / xfe2m4 + 8 / 49 / xmg2m4 + 12 / 49 / xfe2m13 + 12 / 49 / xmg2m13 + 50 / 49 / xfe2m2 + 50 /
    49 / xmg2m2) + 2 * (GS2S2 p)

/-- `D2GDS1DT`, cummingtonite.c 511-513. -/
def D2GDS1DT (xfe2m4 xfe2m13 xfe2m2 xmg2m4 xmg2m13 xmg2m2 : ℝ) : ℝ :=
  R * (4 * Real.log xfe2m4 / 7 - 4 * Real.log xmg2m4 / 7 + 6 * Real.log xfe2m13 / 7 - 6 * Real.log xmg2m13 / 7
    - 10 * Real.log xfe2m2 / 7 + 10 * Real.log xmg2m2 / 7)

/-- `D2GDS1DP`, cummingtonite.c 514. -/
def D2GDS1DP (r0 s0 s1 : ℝ) : ℝ :=
  VS2 + VRS2 * r0 + VS13S2 * s0 + 2 * VS2S2 * s1

/-- `D2GDT2`, cummingtonite.c 516. -/
def D2GDT2 : ℝ :=
  0

/-- `D2GDTDP`, cummingtonite.c 517. -/
def D2GDTDP : ℝ :=
  0

/-- `D2GDP2`, cummingtonite.c 518. -/
def D2GDP2 : ℝ :=
  0

/-- `D3GDR0R0R0`, cummingtonite.c 522-524. -/
def D3GDR0R0R0 (t xfe2m4 xfe2m13 xfe2m2 xmg2m4 xmg2m13 xmg2m2 : ℝ) : ℝ :=
  R * t * ((-(1 / 4)) / xfe2m2 ^ 2 + (1 / 4) / xmg2m2 ^ 2 - (3 / 8) / xfe2m13 ^ 2 + (3 / 8) / xmg2m13 ^ 2 - (1
    / 4) / xfe2m4 ^ 2 + (1 / 4) / xmg2m4 ^ 2)

/-- `D3GDR0R0S0`, cummingtonite.c 525-527. -/
def D3GDR0R0S0 (t xfe2m4 xfe2m13 xfe2m2 xmg2m4 xmg2m13 xmg2m2 : ℝ) : ℝ :=
  (-R) * t * (3 / 14 / xfe2m4 ^ 2 - 3 / 14 / xmg2m4 ^ 2 - 12 / 28 / xfe2m13 ^ 2 + 12 / 28 / xmg2m13 ^ 2 + 3 /
    14 / xfe2m2 ^ 2 - 3 / 14 / xmg2m2 ^ 2)

/-- `D3GDR0R0S1`, cummingtonite.c 528-530. -/
def D3GDR0R0S1 (t xfe2m4 xfe2m13 xfe2m2 xmg2m4 xmg2m13 xmg2m2 : ℝ) : ℝ :=
  (-R) * t * (1 / 7 / xfe2m4 ^ 2 - 1 / 7 / xmg2m4 ^ 2 + 6 / 28 / xfe2m13 ^ 2 - 6 / 28 / xmg2m13 ^ 2 - 5 / 14 /
    xfe2m2 ^ 2 + 5 / 14 / xmg2m2 ^ 2)

/-- `D3GDR0R0DT`, cummingtonite.c 531-532. -/
def D3GDR0R0DT (xfe2m4 xfe2m13 xfe2m2 xmg2m4 xmg2m13 xmg2m2 : ℝ) : ℝ :=
  R * ((1 / 2) / xfe2m4 + (1 / 2) / xmg2m4 + (3 / 4) / xfe2m13 + (3 / 4) / xmg2m13 + (1 / 2) / xfe2m2 + (1 /
    2) / xmg2m2)

/-- `D3GDR0R0DP`, cummingtonite.c 533. -/
def D3GDR0R0DP : ℝ :=
  2 * VRR

/-- `D3GDR0S0S0`, cummingtonite.c 535-537. -/
def D3GDR0S0S0 (t xfe2m4 xfe2m13 xfe2m2 xmg2m4 xmg2m13 xmg2m2 : ℝ) : ℝ :=
  (-R) * t * (9 / 49 / xfe2m4 ^ 2 - 9 / 49 / xmg2m4 ^ 2 + 24 / 49 / xfe2m13 ^ 2 - 24 / 49 / xmg2m13 ^ 2 + 9 /
    49 / xfe2m2 ^ 2 - 9 / 49 / xmg2m2 ^ 2)

/-- `D3GDR0S0S1`, cummingtonite.c 538-540. -/
def D3GDR0S0S1 (t xfe2m4 xfe2m13 xfe2m2 xmg2m4 xmg2m13 xmg2m2 : ℝ) : ℝ :=
  (-R) * t * (6 / 49 / xfe2m4 ^ 2 - 6 / 49 / xmg2m4 ^ 2 - 12 / 49 / xfe2m13 ^ 2 + 12 / 49 / xmg2m13 ^ 2 - 15 /
    49 / xfe2m2 ^ 2 + 15 / 49 / xmg2m2 ^ 2)

/-- `D3GDR0S0DT`, cummingtonite.c 541-543. -/
def D3GDR0S0DT (xfe2m4 xfe2m13 xfe2m2 xmg2m4 xmg2m13 xmg2m2 : ℝ) : ℝ :=
  R * (3 / 7 / xfe2m4 + 3 / 7 / xmg2m4 - 6 / 7 / xfe2m13 - 6 / 7 / xmg2m13 + 3 / 7 / xfe2m2 + 3 / 7 / xmg2m2)

/-- `D3GDR0S0DP`, cummingtonite.c 544. -/
def D3GDR0S0DP : ℝ :=
  VRS13

/-- `D3GDR0S1S1`, cummingtonite.c 546-548. -/
def D3GDR0S1S1 (t xfe2m4 xfe2m13 xfe2m2 xmg2m4 xmg2m13 xmg2m2 : ℝ) : ℝ :=
  (-R) * t * (4 / 49 / xfe2m4 ^ 2 - 4 / 49 / xmg2m4 ^ 2 + 6 / 49 / xfe2m13 ^ 2 - 6 / 49 / xmg2m13 ^ 2 + 25 /
    49 / xfe2m2 ^ 2 - 25 / 49 / xmg2m2 ^ 2)

/-- `D3GDR0S1DT`, cummingtonite.c 549-551. -/
def D3GDR0S1DT (xfe2m4 xfe2m13 xfe2m2 xmg2m4 xmg2m13 xmg2m2 : ℝ) : ℝ :=
  R * (2 / 7 / xfe2m4 + 2 / 7 / xmg2m4 + 3 / 7 / xfe2m13 + 3 / 7 / xmg2m13 - 5 / 7 / xfe2m2 - 5 / 7 / xmg2m2)

/-- `D3GDR0S1DP`, cummingtonite.c 552. -/
def D3GDR0S1DP : ℝ :=
  VRS2

/-- `D3GDS0S0S0`, cummingtonite.c 554-559. -/
def D3GDS0S0S0 (t xfe2m4 xfe2m13 xfe2m2 xmg2m4 xmg2m13 xmg2m2 : ℝ) : ℝ :=
  (-R) * t * (54 / 343 / xfe2m4 ^ 2 - 54 / 343 / xmg2m4 ^ 2 - 192 / 343 / xfe2m13 ^ 2 + 192 / 343 / xmg2m13 ^
    2 + 54 / 343 / xfe2m2 ^ 2 - 54 / 343 / xmg2m2 ^ 2)

/-- `D3GDS0S0S1`, cummingtonite.c 560-565. -/
def D3GDS0S0S1 (t xfe2m4 xfe2m13 xfe2m2 xmg2m4 xmg2m13 xmg2m2 : ℝ) : ℝ :=
  (-R) * t * (36 / 343 / xfe2m4 ^ 2 - 36 / 343 / xmg2m4 ^ 2 + 96 / 343 / xfe2m13 ^ 2 - 96 / 343 / xmg2m13 ^ 2
    - 90 / 343 / xfe2m2 ^ 2 + 90 / 343 / xmg2m2 ^ 2)

/-- `D3GDS0S0DT`, cummingtonite.c 566-568. -/
def D3GDS0S0DT (xfe2m4 xfe2m13 xfe2m2 xmg2m4 xmg2m13 xmg2m2 : ℝ) : ℝ :=
  R * (18 / 49 / xfe2m4 + 18 / 49 / xmg2m4 + 48 / 49 / xfe2m13 + 48 / 49 / xmg2m13 + 18 / 49 / xfe2m2 + 18 /
    49 / xmg2m2)

/-- `D3GDS0S0DP`, cummingtonite.c 569. -/
def D3GDS0S0DP : ℝ :=
  2 * VS13S13

/-- `D3GDS0S1S1`, cummingtonite.c 570-575. -/
def D3GDS0S1S1 (t xfe2m4 xfe2m13 xfe2m2 xmg2m4 xmg2m13 xmg2m2 : ℝ) : ℝ :=
  (-R) * t * (24 / 343 / xfe2m4 ^ 2 - 24 / 343 / xmg2m4 ^ 2 - 48 / 343 / xfe2m13 ^ 2 + 48 / 343 / xmg2m13 ^ 2
    + 150 / 343 / xfe2m2 ^ 2 - 150 / 343 / xmg2m2 ^ 2)

/-- `D3GDS0S1DT`, cummingtonite.c 576-578. -/
def D3GDS0S1DT (xfe2m4 xfe2m13 xfe2m2 xmg2m4 xmg2m13 xmg2m2 : ℝ) : ℝ :=
  R * (12 / 49 / xfe2m4 + 12 / 49 / xmg2m4 - 24 / 49 / xfe2m13 - 24 / 49 / xmg2m13 - 30 / 49 / xfe2m2 - 30 /
    49 / xmg2m2)

/-- `D3GDS0S1DP`, cummingtonite.c 579. -/
def D3GDS0S1DP : ℝ :=
  VS13S2

/-- `D3GDS0DT2`, cummingtonite.c 580. -/
def D3GDS0DT2 : ℝ :=
  0

/-- `D3GDS0DTDP`, cummingtonite.c 581. -/
def D3GDS0DTDP : ℝ :=
  0

/-- `D3GDS0DP2`, cummingtonite.c 582. -/
def D3GDS0DP2 : ℝ :=
  0

/-- `D3GDS1S1S1`, cummingtonite.c 584-589. -/
def D3GDS1S1S1 (t xfe2m4 xfe2m13 xfe2m2 xmg2m4 xmg2m13 xmg2m2 : ℝ) : ℝ :=
  (-R) * t * (16 / 343 / xfe2m4 ^ 2 - 16 / 343 / xmg2m4 ^ 2 + 24 / 343 / xfe2m13 ^ 2 - 24 / 343 / xmg2m13 ^ 2
    - 250 / 343 / xfe2m2 ^ 2 + 250 / 343 / xmg2m2 ^ 2)

/-- `D3GDS1S1DT`, cummingtonite.c 590-592. -/
def D3GDS1S1DT (xfe2m4 xfe2m13 xfe2m2 xmg2m4 xmg2m13 xmg2m2 : ℝ) : ℝ :=
  R * (8 / 49 / xfe2m4 + 8 / 49 / xmg2m4 + 12 / 49 / xfe2m13 + 12 / 49 / xmg2m13 + 50 / 49 / xfe2m2 + 50 / 49
    / xmg2m2)

/-- `D3GDS1S1DP`, cummingtonite.c 593. -/
def D3GDS1S1DP : ℝ :=
  2 * VS2S2

/-- `D3GDS1DT2`, cummingtonite.c 594. -/
def D3GDS1DT2 : ℝ :=
  0

/-- `D3GDS1DTDP`, cummingtonite.c 595. -/
def D3GDS1DTDP : ℝ :=
  0

/-- `D3GDS1DP2`, cummingtonite.c 596. -/
def D3GDS1DP2 : ℝ :=
  0

/-- `D3GDT3`, cummingtonite.c 598. -/
def D3GDT3 : ℝ :=
  0

/-- `D3GDT2DP`, cummingtonite.c 599. -/
def D3GDT2DP : ℝ :=
  0

/-- `D3GDTDP2`, cummingtonite.c 600. -/
def D3GDTDP2 : ℝ :=
  0

/-- `D3GDP3`, cummingtonite.c 601. -/
def D3GDP3 : ℝ :=
  0

/-- `D3GDR0DT2`, cummingtonite.c 603. -/
def D3GDR0DT2 : ℝ :=
  0

/-- `D3GDR0DTDP`, cummingtonite.c 604. -/
def D3GDR0DTDP : ℝ :=
  0

/-- `D3GDR0DP2`, cummingtonite.c 605. -/
def D3GDR0DP2 : ℝ :=
  0

/-- The arrays as the functions of cummingtonite.c fill them (lines 611-675), for site fractions `x` and variables `y`. -/
def tables (x : Fin 6 → ℝ) (y : Var 1 2 → ℝ) : Tables 1 2 where
g := G (y (.inl iT)) (y (.inl iP)) (y (.inl (.inl 0))) (y (.inr 0)) (y (.inr 1)) (x 0) (x 1) (x 2) (x 3) (x
    4) (x 5)
s := S (x 0) (x 1) (x 2) (x 3) (x 4) (x 5)
dgdr := ![DGDR0 (y (.inl iT)) (y (.inl iP)) (y (.inl (.inl 0))) (y (.inr 0)) (y (.inr 1)) (x 0) (x 1) (x 2)
    (x 3) (x 4) (x 5)]
dgds := ![DGDS0 (y (.inl iT)) (y (.inl iP)) (y (.inl (.inl 0))) (y (.inr 0)) (y (.inr 1)) (x 0) (x 1) (x 2)
    (x 3) (x 4) (x 5), DGDS1 (y (.inl iT)) (y (.inl iP)) (y (.inl (.inl 0))) (y (.inr 0)) (y (.inr 1)) (x 0) (x
    1) (x 2) (x 3) (x 4) (x 5)]
dgdt := DGDT (x 0) (x 1) (x 2) (x 3) (x 4) (x 5)
dgdp := DGDP (y (.inl (.inl 0))) (y (.inr 0)) (y (.inr 1))
d2gdt2 := D2GDT2
d2gdtdp := D2GDTDP
d2gdp2 := D2GDP2
d3gdt3 := D3GDT3
d3gdt2dp := D3GDT2DP
d3gdtdp2 := D3GDTDP2
d3gdp3 := D3GDP3
d2gdr2 := ![![D2GDR0R0 (y (.inl iT)) (y (.inl iP)) (x 0) (x 1) (x 2) (x 3) (x 4) (x 5)]]
d2gdrds := ![![D2GDR0S0 (y (.inl iT)) (y (.inl iP)) (x 0) (x 1) (x 2) (x 3) (x 4) (x 5), D2GDR0S1 (y (.inl
    iT)) (y (.inl iP)) (x 0) (x 1) (x 2) (x 3) (x 4) (x 5)]]
d2gdrdt := ![D2GDR0DT (x 0) (x 1) (x 2) (x 3) (x 4) (x 5)]
d2gdrdp := ![D2GDR0DP (y (.inl (.inl 0))) (y (.inr 0)) (y (.inr 1))]
d2gds2 := ![![D2GDS0S0 (y (.inl iT)) (y (.inl iP)) (x 0) (x 1) (x 2) (x 3) (x 4) (x 5), D2GDS0S1 (y (.inl
    iT)) (y (.inl iP)) (x 0) (x 1) (x 2) (x 3) (x 4) (x 5)], ![D2GDS0S1 (y (.inl iT)) (y (.inl iP)) (x 0) (x 1)
    (x 2) (x 3) (x 4) (x 5), D2GDS1S1 (y (.inl iT)) (y (.inl iP)) (x 0) (x 1) (x 2) (x 3) (x 4) (x 5)]]
d2gdsdt := ![D2GDS0DT (x 0) (x 1) (x 2) (x 3) (x 4) (x 5), D2GDS1DT (x 0) (x 1) (x 2) (x 3) (x 4) (x 5)]
d2gdsdp := ![D2GDS0DP (y (.inl (.inl 0))) (y (.inr 0)) (y (.inr 1)), D2GDS1DP (y (.inl (.inl 0))) (y (.inr
    0)) (y (.inr 1))]
d3gdr3 := ![![![D3GDR0R0R0 (y (.inl iT)) (x 0) (x 1) (x 2) (x 3) (x 4) (x 5)]]]
d3gdr2ds := ![![![D3GDR0R0S0 (y (.inl iT)) (x 0) (x 1) (x 2) (x 3) (x 4) (x 5), D3GDR0R0S1 (y (.inl iT)) (x
    0) (x 1) (x 2) (x 3) (x 4) (x 5)]]]
d3gdr2dt := ![![D3GDR0R0DT (x 0) (x 1) (x 2) (x 3) (x 4) (x 5)]]
d3gdr2dp := ![![D3GDR0R0DP]]
d3gdrds2 := ![![![D3GDR0S0S0 (y (.inl iT)) (x 0) (x 1) (x 2) (x 3) (x 4) (x 5), D3GDR0S0S1 (y (.inl iT)) (x
    0) (x 1) (x 2) (x 3) (x 4) (x 5)], ![D3GDR0S0S1 (y (.inl iT)) (x 0) (x 1) (x 2) (x 3) (x 4) (x 5),
    D3GDR0S1S1 (y (.inl iT)) (x 0) (x 1) (x 2) (x 3) (x 4) (x 5)]]]
d3gdrdsdt := ![![D3GDR0S0DT (x 0) (x 1) (x 2) (x 3) (x 4) (x 5), D3GDR0S1DT (x 0) (x 1) (x 2) (x 3) (x 4) (x
    5)]]
d3gdrdsdp := ![![D3GDR0S0DP, D3GDR0S1DP]]
d3gdrdt2 := ![D3GDR0DT2]
d3gdrdtdp := ![D3GDR0DTDP]
d3gdrdp2 := ![D3GDR0DP2]
d3gds3 := ![![![D3GDS0S0S0 (y (.inl iT)) (x 0) (x 1) (x 2) (x 3) (x 4) (x 5), D3GDS0S0S1 (y (.inl iT)) (x 0)
    (x 1) (x 2) (x 3) (x 4) (x 5)], ![D3GDS0S0S1 (y (.inl iT)) (x 0) (x 1) (x 2) (x 3) (x 4) (x 5), D3GDS0S1S1
    (y (.inl iT)) (x 0) (x 1) (x 2) (x 3) (x 4) (x 5)]], ![![D3GDS0S0S1 (y (.inl iT)) (x 0) (x 1) (x 2) (x 3) (x
    4) (x 5), D3GDS0S1S1 (y (.inl iT)) (x 0) (x 1) (x 2) (x 3) (x 4) (x 5)], ![D3GDS0S1S1 (y (.inl iT)) (x 0) (x
    1) (x 2) (x 3) (x 4) (x 5), D3GDS1S1S1 (y (.inl iT)) (x 0) (x 1) (x 2) (x 3) (x 4) (x 5)]]]
d3gds2dt := ![![D3GDS0S0DT (x 0) (x 1) (x 2) (x 3) (x 4) (x 5), D3GDS0S1DT (x 0) (x 1) (x 2) (x 3) (x 4) (x
    5)], ![D3GDS0S1DT (x 0) (x 1) (x 2) (x 3) (x 4) (x 5), D3GDS1S1DT (x 0) (x 1) (x 2) (x 3) (x 4) (x 5)]]
d3gds2dp := ![![D3GDS0S0DP, D3GDS0S1DP], ![D3GDS0S1DP, D3GDS1S1DP]]
d3gdsdt2 := ![D3GDS0DT2, D3GDS1DT2]
d3gdsdtdp := ![D3GDS0DTDP, D3GDS1DTDP]
d3gdsdp2 := ![D3GDS0DP2, D3GDS1DP2]

/-- Site fractions before they are kept inside their bounds, cummingtonite.c 727-748. -/
def raw (y : Var 1 2 → ℝ) : Fin 6 → ℝ :=
  ![(1 + (y (.inl (.inl 0))) + 6 * (y (.inr 0)) / 7 + 4 * (y (.inr 1)) / 7) / 2, (1 + (y (.inl (.inl 0))) - 8
    * (y (.inr 0)) / 7 + 4 * (y (.inr 1)) / 7) / 2, (1 + (y (.inl (.inl 0))) + 6 * (y (.inr 0)) / 7 - 10 * (y
    (.inr 1)) / 7) / 2, 1 - (1 + (y (.inl (.inl 0))) + 6 * (y (.inr 0)) / 7 + 4 * (y (.inr 1)) / 7) / 2, 1 - (1
    + (y (.inl (.inl 0))) - 8 * (y (.inr 0)) / 7 + 4 * (y (.inr 1)) / 7) / 2, 1 - (1 + (y (.inl (.inl 0))) + 6 *
    (y (.inr 0)) / 7 - 10 * (y (.inr 1)) / 7) / 2]

/-- Bounds applied to the site fractions, cummingtonite.c 727-748. -/
def site (y : Var 1 2 → ℝ) : Fin 6 → ℝ :=
  ![keep 0 1 (1 - dblEps) (raw y 0), keep 0 1 (1 - dblEps) (raw y 1), keep 0 1 (1 - dblEps) (raw y 2), keep 0
    1 (1 - dblEps) (raw y 3), keep 0 1 (1 - dblEps) (raw y 4), keep 0 1 (1 - dblEps) (raw y 5)]

/-- The macros of cummingtonite.c at given composition, conditions and ordering state. -/
def macros (y : Var 1 2 → ℝ) : Tables 1 2 := tables (site y) y

/-- Where no bound on the site fractions is active. -/
def Dom (y : Var 1 2 → ℝ) : Prop :=
  (0 < raw y 0 ∧ raw y 0 < 1) ∧ (0 < raw y 1 ∧ raw y 1 < 1) ∧ (0 < raw y 2 ∧ raw y 2 < 1) ∧ (0 < raw y 3 ∧ raw
    y 3 < 1) ∧ (0 < raw y 4 ∧ raw y 4 < 1) ∧ (0 < raw y 5 ∧ raw y 5 < 1)

lemma hl (y u : Var 1 2 → ℝ) (i : Var 1 2) : HasDerivAt (fun v : ℝ => y i + v * u i) (u i) 0 := by
  simpa using ((hasDerivAt_id' (0 : ℝ)).mul_const (u i)).const_add (y i)

lemma raw_line0 (y u : Var 1 2 → ℝ) : HasDerivAt (fun v : ℝ => raw (fun i => y i + v * u i) 0)
    ((1 / 2) * u (.inl (.inl 0)) + (3 / 7) * u (.inr 0) + (2 / 7) * u (.inr 1)) 0 := by
  have hr0 := hl y u ((.inl (.inl 0)))
  have hs0 := hl y u ((.inr 0))
  have hs1 := hl y u ((.inr 1))
  change HasDerivAt (fun v : ℝ => (1 + (y (.inl (.inl 0)) + v * u (.inl (.inl 0))) + 6 * (y (.inr 0) + v * u (.inr 0)) / 7 + 4 * (y (.inr 1) +
    v * u (.inr 1)) / 7) / 2) _ 0
  refine HasDerivAt.congr_deriv (by hdo) ?_
  ring

lemma raw_line1 (y u : Var 1 2 → ℝ) : HasDerivAt (fun v : ℝ => raw (fun i => y i + v * u i) 1)
    ((1 / 2) * u (.inl (.inl 0)) + (-(4) / 7) * u (.inr 0) + (2 / 7) * u (.inr 1)) 0 := by
  have hr0 := hl y u ((.inl (.inl 0)))
  have hs0 := hl y u ((.inr 0))
  have hs1 := hl y u ((.inr 1))
  change HasDerivAt (fun v : ℝ => (1 + (y (.inl (.inl 0)) + v * u (.inl (.inl 0))) - 8 * (y (.inr 0) + v * u (.inr 0)) / 7 + 4 * (y (.inr 1) +
    v * u (.inr 1)) / 7) / 2) _ 0
  refine HasDerivAt.congr_deriv (by hdo) ?_
  ring

lemma raw_line2 (y u : Var 1 2 → ℝ) : HasDerivAt (fun v : ℝ => raw (fun i => y i + v * u i) 2)
    ((1 / 2) * u (.inl (.inl 0)) + (3 / 7) * u (.inr 0) + (-(5) / 7) * u (.inr 1)) 0 := by
  have hr0 := hl y u ((.inl (.inl 0)))
  have hs0 := hl y u ((.inr 0))
  have hs1 := hl y u ((.inr 1))
  change HasDerivAt (fun v : ℝ => (1 + (y (.inl (.inl 0)) + v * u (.inl (.inl 0))) + 6 * (y (.inr 0) + v * u (.inr 0)) / 7 - 10 * (y (.inr 1)
    + v * u (.inr 1)) / 7) / 2) _ 0
  refine HasDerivAt.congr_deriv (by hdo) ?_
  ring

lemma raw_line3 (y u : Var 1 2 → ℝ) : HasDerivAt (fun v : ℝ => raw (fun i => y i + v * u i) 3)
    ((-(1) / 2) * u (.inl (.inl 0)) + (-(3) / 7) * u (.inr 0) + (-(2) / 7) * u (.inr 1)) 0 := by
  have hr0 := hl y u ((.inl (.inl 0)))
  have hs0 := hl y u ((.inr 0))
  have hs1 := hl y u ((.inr 1))
  change HasDerivAt (fun v : ℝ => 1 - (1 + (y (.inl (.inl 0)) + v * u (.inl (.inl 0))) + 6 * (y (.inr 0) + v * u (.inr 0)) / 7 + 4 * (y (.inr
    1) + v * u (.inr 1)) / 7) / 2) _ 0
  refine HasDerivAt.congr_deriv (by hdo) ?_
  ring

lemma raw_line4 (y u : Var 1 2 → ℝ) : HasDerivAt (fun v : ℝ => raw (fun i => y i + v * u i) 4)
    ((-(1) / 2) * u (.inl (.inl 0)) + (4 / 7) * u (.inr 0) + (-(2) / 7) * u (.inr 1)) 0 := by
  have hr0 := hl y u ((.inl (.inl 0)))
  have hs0 := hl y u ((.inr 0))
  have hs1 := hl y u ((.inr 1))
  change HasDerivAt (fun v : ℝ => 1 - (1 + (y (.inl (.inl 0)) + v * u (.inl (.inl 0))) - 8 * (y (.inr 0) + v * u (.inr 0)) / 7 + 4 * (y (.inr
    1) + v * u (.inr 1)) / 7) / 2) _ 0
  refine HasDerivAt.congr_deriv (by hdo) ?_
  ring

lemma raw_line5 (y u : Var 1 2 → ℝ) : HasDerivAt (fun v : ℝ => raw (fun i => y i + v * u i) 5)
    ((-(1) / 2) * u (.inl (.inl 0)) + (-(3) / 7) * u (.inr 0) + (5 / 7) * u (.inr 1)) 0 := by
  have hr0 := hl y u ((.inl (.inl 0)))
  have hs0 := hl y u ((.inr 0))
  have hs1 := hl y u ((.inr 1))
  change HasDerivAt (fun v : ℝ => 1 - (1 + (y (.inl (.inl 0)) + v * u (.inl (.inl 0))) + 6 * (y (.inr 0) + v * u (.inr 0)) / 7 - 10 * (y (.inr
    1) + v * u (.inr 1)) / 7) / 2) _ 0
  refine HasDerivAt.congr_deriv (by hdo) ?_
  ring

lemma raw_diff (k : Fin 6) (y : Var 1 2 → ℝ) : DifferentiableAt ℝ (fun y => raw y k) y := by
  fin_cases k
  · change DifferentiableAt ℝ (fun y : Var 1 2 → ℝ => (1 + (y (.inl (.inl 0))) + 6 * (y (.inr 0)) / 7 + 4 * (y (.inr 1)) / 7) / 2) y; ddo
  · change DifferentiableAt ℝ (fun y : Var 1 2 → ℝ => (1 + (y (.inl (.inl 0))) - 8 * (y (.inr 0)) / 7 + 4 * (y (.inr 1)) / 7) / 2) y; ddo
  · change DifferentiableAt ℝ (fun y : Var 1 2 → ℝ => (1 + (y (.inl (.inl 0))) + 6 * (y (.inr 0)) / 7 - 10 * (y (.inr 1)) / 7) / 2) y; ddo
  · change DifferentiableAt ℝ (fun y : Var 1 2 → ℝ => 1 - (1 + (y (.inl (.inl 0))) + 6 * (y (.inr 0)) / 7 + 4 * (y (.inr 1)) / 7) / 2) y; ddo
  · change DifferentiableAt ℝ (fun y : Var 1 2 → ℝ => 1 - (1 + (y (.inl (.inl 0))) - 8 * (y (.inr 0)) / 7 + 4 * (y (.inr 1)) / 7) / 2) y; ddo
  · change DifferentiableAt ℝ (fun y : Var 1 2 → ℝ => 1 - (1 + (y (.inl (.inl 0))) + 6 * (y (.inr 0)) / 7 - 10 * (y (.inr 1)) / 7) / 2) y; ddo

lemma pos (y : Var 1 2 → ℝ) (hy : Dom y) :
    0 < raw y 0 ∧ 0 < raw y 1 ∧ 0 < raw y 2 ∧ 0 < raw y 3 ∧ 0 < raw y 4 ∧ 0 < raw y 5 := by
  have he := dblEps_pos
  obtain ⟨h0, h1, h2, h3, h4, h5⟩ := hy
  refine ⟨?_, ?_, ?_, ?_, ?_, ?_⟩ <;> first | linarith | assumption

lemma c_G {t p r0 s0 s1 xfe2m4 xfe2m13 xfe2m2 xmg2m4 xmg2m13 xmg2m2 : ℝ → ℝ} {v dt dp dr0 ds0 ds1 : ℝ} (ht :
    HasDerivAt t dt v) (hp : HasDerivAt p dp v) (hr0 : HasDerivAt r0 dr0 v) (hs0 : HasDerivAt s0 ds0 v) (hs1 :
    HasDerivAt s1 ds1 v) (hxfe2m4 : HasDerivAt xfe2m4 ((1 / 2) * dr0 + (3 / 7) * ds0 + (2 / 7) * ds1) v)
    (pxfe2m4 : 0 < xfe2m4 v) (hxfe2m13 : HasDerivAt xfe2m13 ((1 / 2) * dr0 + (-(4) / 7) * ds0 + (2 / 7) * ds1)
    v) (pxfe2m13 : 0 < xfe2m13 v) (hxfe2m2 : HasDerivAt xfe2m2 ((1 / 2) * dr0 + (3 / 7) * ds0 + (-(5) / 7) *
    ds1) v) (pxfe2m2 : 0 < xfe2m2 v) (hxmg2m4 : HasDerivAt xmg2m4 ((-(1) / 2) * dr0 + (-(3) / 7) * ds0 + (-(2) /
    7) * ds1) v) (pxmg2m4 : 0 < xmg2m4 v) (hxmg2m13 : HasDerivAt xmg2m13 ((-(1) / 2) * dr0 + (4 / 7) * ds0 +
    (-(2) / 7) * ds1) v) (pxmg2m13 : 0 < xmg2m13 v) (hxmg2m2 : HasDerivAt xmg2m2 ((-(1) / 2) * dr0 + (-(3) / 7)
    * ds0 + (5 / 7) * ds1) v) (pxmg2m2 : 0 < xmg2m2 v) :
    HasDerivAt (fun v => G (t v) (p v) (r0 v) (s0 v) (s1 v) (xfe2m4 v) (xfe2m13 v) (xfe2m2 v) (xmg2m4 v) (xmg2m13 v) (xmg2m2 v))
    (((DGDR0 (t v) (p v) (r0 v) (s0 v) (s1 v) (xfe2m4 v) (xfe2m13 v) (xfe2m2 v) (xmg2m4 v) (xmg2m13 v) (xmg2m2
    v)) * dr0) + ((DGDT (xfe2m4 v) (xfe2m13 v) (xfe2m2 v) (xmg2m4 v) (xmg2m13 v) (xmg2m2 v)) * dt + (DGDP (r0 v)
    (s0 v) (s1 v)) * dp) + ((DGDS0 (t v) (p v) (r0 v) (s0 v) (s1 v) (xfe2m4 v) (xfe2m13 v) (xfe2m2 v) (xmg2m4 v)
    (xmg2m13 v) (xmg2m2 v)) * ds0 + (DGDS1 (t v) (p v) (r0 v) (s0 v) (s1 v) (xfe2m4 v) (xfe2m13 v) (xfe2m2 v)
    (xmg2m4 v) (xmg2m13 v) (xmg2m2 v)) * ds1)) v := by
  have nxfe2m4 := pxfe2m4.ne'
  have nxfe2m13 := pxfe2m13.ne'
  have nxfe2m2 := pxfe2m2.ne'
  have nxmg2m4 := pxmg2m4.ne'
  have nxmg2m13 := pxmg2m13.ne'
  have nxmg2m2 := pxmg2m2.ne'
  try simp only [H0, HR, HS13, HS2, HRR, HRS13, HRS2, HS13S13, HS13S2, HS2S2, H, S, WV123, WV4, VX123_4, V0, VR, VEX, VDEX, VS13, VS2, VRR, WV13, VX13_24, VRS13, WV2, VX134_2, VRS2, VS13S13, VS13S2, VS2S2, V, G, DGDT, DGDP, GR, WG123, WG4, GX123_4, GRR, WG13, GX13_24, GRS13, WG2, GX134_2, GRS2, DGDR0, GEX, GDEX, GS13, GS13S13, GS13S2, DGDS0, GS2, GS2S2, DGDS1, zero_mul, mul_zero, add_zero, zero_add, sub_zero]
  refine HasDerivAt.congr_deriv (by hdo) ?_
  ring

lemma c_DGDR0 {t p r0 s0 s1 xfe2m4 xfe2m13 xfe2m2 xmg2m4 xmg2m13 xmg2m2 : ℝ → ℝ} {v dt dp dr0 ds0 ds1 : ℝ} (ht :
    HasDerivAt t dt v) (hp : HasDerivAt p dp v) (hr0 : HasDerivAt r0 dr0 v) (hs0 : HasDerivAt s0 ds0 v) (hs1 :
    HasDerivAt s1 ds1 v) (hxfe2m4 : HasDerivAt xfe2m4 ((1 / 2) * dr0 + (3 / 7) * ds0 + (2 / 7) * ds1) v)
    (pxfe2m4 : 0 < xfe2m4 v) (hxfe2m13 : HasDerivAt xfe2m13 ((1 / 2) * dr0 + (-(4) / 7) * ds0 + (2 / 7) * ds1)
    v) (pxfe2m13 : 0 < xfe2m13 v) (hxfe2m2 : HasDerivAt xfe2m2 ((1 / 2) * dr0 + (3 / 7) * ds0 + (-(5) / 7) *
    ds1) v) (pxfe2m2 : 0 < xfe2m2 v) (hxmg2m4 : HasDerivAt xmg2m4 ((-(1) / 2) * dr0 + (-(3) / 7) * ds0 + (-(2) /
    7) * ds1) v) (pxmg2m4 : 0 < xmg2m4 v) (hxmg2m13 : HasDerivAt xmg2m13 ((-(1) / 2) * dr0 + (4 / 7) * ds0 +
    (-(2) / 7) * ds1) v) (pxmg2m13 : 0 < xmg2m13 v) (hxmg2m2 : HasDerivAt xmg2m2 ((-(1) / 2) * dr0 + (-(3) / 7)
    * ds0 + (5 / 7) * ds1) v) (pxmg2m2 : 0 < xmg2m2 v) :
    HasDerivAt (fun v => DGDR0 (t v) (p v) (r0 v) (s0 v) (s1 v) (xfe2m4 v) (xfe2m13 v) (xfe2m2 v) (xmg2m4 v) (xmg2m13 v) (xmg2m2 v))
    (((D2GDR0R0 (t v) (p v) (xfe2m4 v) (xfe2m13 v) (xfe2m2 v) (xmg2m4 v) (xmg2m13 v) (xmg2m2 v)) * dr0) +
    ((D2GDR0DT (xfe2m4 v) (xfe2m13 v) (xfe2m2 v) (xmg2m4 v) (xmg2m13 v) (xmg2m2 v)) * dt + (D2GDR0DP (r0 v) (s0
    v) (s1 v)) * dp) + ((D2GDR0S0 (t v) (p v) (xfe2m4 v) (xfe2m13 v) (xfe2m2 v) (xmg2m4 v) (xmg2m13 v) (xmg2m2
    v)) * ds0 + (D2GDR0S1 (t v) (p v) (xfe2m4 v) (xfe2m13 v) (xfe2m2 v) (xmg2m4 v) (xmg2m13 v) (xmg2m2 v)) *
    ds1)) v := by
  have nxfe2m4 := pxfe2m4.ne'
  have nxfe2m13 := pxfe2m13.ne'
  have nxfe2m2 := pxfe2m2.ne'
  have nxmg2m4 := pxmg2m4.ne'
  have nxmg2m13 := pxmg2m13.ne'
  have nxmg2m2 := pxmg2m2.ne'
  try simp only [GR, WV123, WG123, WV4, WG4, VX123_4, GX123_4, GRR, WV13, WG13, VX13_24, GX13_24, GRS13, WV2, WG2, VX134_2, GX134_2, GRS2, DGDR0, D2GDR0DT, VR, VRR, VRS13, VRS2, D2GDR0DP, D2GDR0R0, D2GDR0S0, D2GDR0S1, zero_mul, mul_zero, add_zero, zero_add, sub_zero]
  refine HasDerivAt.congr_deriv (by hdo) ?_
  ring

lemma c_DGDS0 {t p r0 s0 s1 xfe2m4 xfe2m13 xfe2m2 xmg2m4 xmg2m13 xmg2m2 : ℝ → ℝ} {v dt dp dr0 ds0 ds1 : ℝ} (ht :
    HasDerivAt t dt v) (hp : HasDerivAt p dp v) (hr0 : HasDerivAt r0 dr0 v) (hs0 : HasDerivAt s0 ds0 v) (hs1 :
    HasDerivAt s1 ds1 v) (hxfe2m4 : HasDerivAt xfe2m4 ((1 / 2) * dr0 + (3 / 7) * ds0 + (2 / 7) * ds1) v)
    (pxfe2m4 : 0 < xfe2m4 v) (hxfe2m13 : HasDerivAt xfe2m13 ((1 / 2) * dr0 + (-(4) / 7) * ds0 + (2 / 7) * ds1)
    v) (pxfe2m13 : 0 < xfe2m13 v) (hxfe2m2 : HasDerivAt xfe2m2 ((1 / 2) * dr0 + (3 / 7) * ds0 + (-(5) / 7) *
    ds1) v) (pxfe2m2 : 0 < xfe2m2 v) (hxmg2m4 : HasDerivAt xmg2m4 ((-(1) / 2) * dr0 + (-(3) / 7) * ds0 + (-(2) /
    7) * ds1) v) (pxmg2m4 : 0 < xmg2m4 v) (hxmg2m13 : HasDerivAt xmg2m13 ((-(1) / 2) * dr0 + (4 / 7) * ds0 +
    (-(2) / 7) * ds1) v) (pxmg2m13 : 0 < xmg2m13 v) (hxmg2m2 : HasDerivAt xmg2m2 ((-(1) / 2) * dr0 + (-(3) / 7)
    * ds0 + (5 / 7) * ds1) v) (pxmg2m2 : 0 < xmg2m2 v) :
    HasDerivAt (fun v => DGDS0 (t v) (p v) (r0 v) (s0 v) (s1 v) (xfe2m4 v) (xfe2m13 v) (xfe2m2 v) (xmg2m4 v) (xmg2m13 v) (xmg2m2 v))
    (((D2GDR0S0 (t v) (p v) (xfe2m4 v) (xfe2m13 v) (xfe2m2 v) (xmg2m4 v) (xmg2m13 v) (xmg2m2 v)) * dr0) +
    ((D2GDS0DT (xfe2m4 v) (xfe2m13 v) (xfe2m2 v) (xmg2m4 v) (xmg2m13 v) (xmg2m2 v)) * dt + (D2GDS0DP (r0 v) (s0
    v) (s1 v)) * dp) + ((D2GDS0S0 (t v) (p v) (xfe2m4 v) (xfe2m13 v) (xfe2m2 v) (xmg2m4 v) (xmg2m13 v) (xmg2m2
    v)) * ds0 + (D2GDS0S1 (t v) (p v) (xfe2m4 v) (xfe2m13 v) (xfe2m2 v) (xmg2m4 v) (xmg2m13 v) (xmg2m2 v)) *
    ds1)) v := by
  have nxfe2m4 := pxfe2m4.ne'
  have nxfe2m13 := pxfe2m13.ne'
  have nxfe2m2 := pxfe2m2.ne'
  have nxmg2m4 := pxmg2m4.ne'
  have nxmg2m13 := pxmg2m13.ne'
  have nxmg2m2 := pxmg2m2.ne'
  try simp only [VEX, GEX, VDEX, GDEX, GS13, WV123, WG123, WV13, WG13, WV4, WG4, VX123_4, GX123_4, VX13_24, GX13_24, GRS13, GS13S13, WV2, WG2, VX134_2, GX134_2, GS13S2, DGDS0, D2GDS0DT, VS13, VRS13, VS13S13, VS13S2, D2GDS0DP, D2GDR0S0, D2GDS0S0, D2GDS0S1, zero_mul, mul_zero, add_zero, zero_add, sub_zero]
  refine HasDerivAt.congr_deriv (by hdo) ?_
  ring

lemma c_DGDS1 {t p r0 s0 s1 xfe2m4 xfe2m13 xfe2m2 xmg2m4 xmg2m13 xmg2m2 : ℝ → ℝ} {v dt dp dr0 ds0 ds1 : ℝ} (ht :
    HasDerivAt t dt v) (hp : HasDerivAt p dp v) (hr0 : HasDerivAt r0 dr0 v) (hs0 : HasDerivAt s0 ds0 v) (hs1 :
    HasDerivAt s1 ds1 v) (hxfe2m4 : HasDerivAt xfe2m4 ((1 / 2) * dr0 + (3 / 7) * ds0 + (2 / 7) * ds1) v)
    (pxfe2m4 : 0 < xfe2m4 v) (hxfe2m13 : HasDerivAt xfe2m13 ((1 / 2) * dr0 + (-(4) / 7) * ds0 + (2 / 7) * ds1)
    v) (pxfe2m13 : 0 < xfe2m13 v) (hxfe2m2 : HasDerivAt xfe2m2 ((1 / 2) * dr0 + (3 / 7) * ds0 + (-(5) / 7) *
    ds1) v) (pxfe2m2 : 0 < xfe2m2 v) (hxmg2m4 : HasDerivAt xmg2m4 ((-(1) / 2) * dr0 + (-(3) / 7) * ds0 + (-(2) /
    7) * ds1) v) (pxmg2m4 : 0 < xmg2m4 v) (hxmg2m13 : HasDerivAt xmg2m13 ((-(1) / 2) * dr0 + (4 / 7) * ds0 +
    (-(2) / 7) * ds1) v) (pxmg2m13 : 0 < xmg2m13 v) (hxmg2m2 : HasDerivAt xmg2m2 ((-(1) / 2) * dr0 + (-(3) / 7)
    * ds0 + (5 / 7) * ds1) v) (pxmg2m2 : 0 < xmg2m2 v) :
    HasDerivAt (fun v => DGDS1 (t v) (p v) (r0 v) (s0 v) (s1 v) (xfe2m4 v) (xfe2m13 v) (xfe2m2 v) (xmg2m4 v) (xmg2m13 v) (xmg2m2 v))
    (((D2GDR0S1 (t v) (p v) (xfe2m4 v) (xfe2m13 v) (xfe2m2 v) (xmg2m4 v) (xmg2m13 v) (xmg2m2 v)) * dr0) +
    ((D2GDS1DT (xfe2m4 v) (xfe2m13 v) (xfe2m2 v) (xmg2m4 v) (xmg2m13 v) (xmg2m2 v)) * dt + (D2GDS1DP (r0 v) (s0
    v) (s1 v)) * dp) + ((D2GDS0S1 (t v) (p v) (xfe2m4 v) (xfe2m13 v) (xfe2m2 v) (xmg2m4 v) (xmg2m13 v) (xmg2m2
    v)) * ds0 + (D2GDS1S1 (t v) (p v) (xfe2m4 v) (xfe2m13 v) (xfe2m2 v) (xmg2m4 v) (xmg2m13 v) (xmg2m2 v)) *
    ds1)) v := by
  have nxfe2m4 := pxfe2m4.ne'
  have nxfe2m13 := pxfe2m13.ne'
  have nxfe2m2 := pxfe2m2.ne'
  have nxmg2m4 := pxmg2m4.ne'
  have nxmg2m13 := pxmg2m13.ne'
  have nxmg2m2 := pxmg2m2.ne'
  try simp only [VEX, GEX, VDEX, GDEX, GS2, WV123, WG123, WV2, WG2, WV4, WG4, VX123_4, GX123_4, VX134_2, GX134_2, GRS2, WV13, WG13, VX13_24, GX13_24, GS13S2, GS2S2, DGDS1, D2GDS1DT, VS2, VRS2, VS13S2, VS2S2, D2GDS1DP, D2GDR0S1, D2GDS0S1, D2GDS1S1, zero_mul, mul_zero, add_zero, zero_add, sub_zero]
  refine HasDerivAt.congr_deriv (by hdo) ?_
  ring

lemma c_DGDT {t p r0 s0 s1 xfe2m4 xfe2m13 xfe2m2 xmg2m4 xmg2m13 xmg2m2 : ℝ → ℝ} {v dt dp dr0 ds0 ds1 : ℝ} (ht :
    HasDerivAt t dt v) (hp : HasDerivAt p dp v) (hr0 : HasDerivAt r0 dr0 v) (hs0 : HasDerivAt s0 ds0 v) (hs1 :
    HasDerivAt s1 ds1 v) (hxfe2m4 : HasDerivAt xfe2m4 ((1 / 2) * dr0 + (3 / 7) * ds0 + (2 / 7) * ds1) v)
    (pxfe2m4 : 0 < xfe2m4 v) (hxfe2m13 : HasDerivAt xfe2m13 ((1 / 2) * dr0 + (-(4) / 7) * ds0 + (2 / 7) * ds1)
    v) (pxfe2m13 : 0 < xfe2m13 v) (hxfe2m2 : HasDerivAt xfe2m2 ((1 / 2) * dr0 + (3 / 7) * ds0 + (-(5) / 7) *
    ds1) v) (pxfe2m2 : 0 < xfe2m2 v) (hxmg2m4 : HasDerivAt xmg2m4 ((-(1) / 2) * dr0 + (-(3) / 7) * ds0 + (-(2) /
    7) * ds1) v) (pxmg2m4 : 0 < xmg2m4 v) (hxmg2m13 : HasDerivAt xmg2m13 ((-(1) / 2) * dr0 + (4 / 7) * ds0 +
    (-(2) / 7) * ds1) v) (pxmg2m13 : 0 < xmg2m13 v) (hxmg2m2 : HasDerivAt xmg2m2 ((-(1) / 2) * dr0 + (-(3) / 7)
    * ds0 + (5 / 7) * ds1) v) (pxmg2m2 : 0 < xmg2m2 v) :
    HasDerivAt (fun v => DGDT (xfe2m4 v) (xfe2m13 v) (xfe2m2 v) (xmg2m4 v) (xmg2m13 v) (xmg2m2 v))
    (((D2GDR0DT (xfe2m4 v) (xfe2m13 v) (xfe2m2 v) (xmg2m4 v) (xmg2m13 v) (xmg2m2 v)) * dr0) + (D2GDT2 * dt +
    D2GDTDP * dp) + ((D2GDS0DT (xfe2m4 v) (xfe2m13 v) (xfe2m2 v) (xmg2m4 v) (xmg2m13 v) (xmg2m2 v)) * ds0 +
    (D2GDS1DT (xfe2m4 v) (xfe2m13 v) (xfe2m2 v) (xmg2m4 v) (xmg2m13 v) (xmg2m2 v)) * ds1)) v := by
  have nxfe2m4 := pxfe2m4.ne'
  have nxfe2m13 := pxfe2m13.ne'
  have nxfe2m2 := pxfe2m2.ne'
  have nxmg2m4 := pxmg2m4.ne'
  have nxmg2m13 := pxmg2m13.ne'
  have nxmg2m2 := pxmg2m2.ne'
  try simp only [S, DGDT, D2GDT2, D2GDTDP, D2GDR0DT, D2GDS0DT, D2GDS1DT, zero_mul, mul_zero, add_zero, zero_add, sub_zero]
  refine HasDerivAt.congr_deriv (by hdo) ?_
  ring

lemma c_DGDP {t p r0 s0 s1 : ℝ → ℝ} {v dt dp dr0 ds0 ds1 : ℝ} (ht : HasDerivAt t dt v) (hp : HasDerivAt p dp v) (hr0 :
    HasDerivAt r0 dr0 v) (hs0 : HasDerivAt s0 ds0 v) (hs1 : HasDerivAt s1 ds1 v) :
    HasDerivAt (fun v => DGDP (r0 v) (s0 v) (s1 v))
    (((D2GDR0DP (r0 v) (s0 v) (s1 v)) * dr0) + (D2GDTDP * dt + D2GDP2 * dp) + ((D2GDS0DP (r0 v) (s0 v) (s1 v)) *
    ds0 + (D2GDS1DP (r0 v) (s0 v) (s1 v)) * ds1)) v := by
  try simp only [WV123, WV4, VX123_4, V0, VR, VEX, VDEX, VS13, VS2, VRR, WV13, VX13_24, VRS13, WV2, VX134_2, VRS2, VS13S13, VS13S2, VS2S2, V, DGDP, D2GDTDP, D2GDP2, D2GDR0DP, D2GDS0DP, D2GDS1DP, zero_mul, mul_zero, add_zero, zero_add, sub_zero]
  refine HasDerivAt.congr_deriv (by hdo) ?_
  ring

lemma c_D2GDR0R0 {t p r0 s0 s1 xfe2m4 xfe2m13 xfe2m2 xmg2m4 xmg2m13 xmg2m2 : ℝ → ℝ} {v dt dp dr0 ds0 ds1 : ℝ} (ht :
    HasDerivAt t dt v) (hp : HasDerivAt p dp v) (hr0 : HasDerivAt r0 dr0 v) (hs0 : HasDerivAt s0 ds0 v) (hs1 :
    HasDerivAt s1 ds1 v) (hxfe2m4 : HasDerivAt xfe2m4 ((1 / 2) * dr0 + (3 / 7) * ds0 + (2 / 7) * ds1) v)
    (pxfe2m4 : 0 < xfe2m4 v) (hxfe2m13 : HasDerivAt xfe2m13 ((1 / 2) * dr0 + (-(4) / 7) * ds0 + (2 / 7) * ds1)
    v) (pxfe2m13 : 0 < xfe2m13 v) (hxfe2m2 : HasDerivAt xfe2m2 ((1 / 2) * dr0 + (3 / 7) * ds0 + (-(5) / 7) *
    ds1) v) (pxfe2m2 : 0 < xfe2m2 v) (hxmg2m4 : HasDerivAt xmg2m4 ((-(1) / 2) * dr0 + (-(3) / 7) * ds0 + (-(2) /
    7) * ds1) v) (pxmg2m4 : 0 < xmg2m4 v) (hxmg2m13 : HasDerivAt xmg2m13 ((-(1) / 2) * dr0 + (4 / 7) * ds0 +
    (-(2) / 7) * ds1) v) (pxmg2m13 : 0 < xmg2m13 v) (hxmg2m2 : HasDerivAt xmg2m2 ((-(1) / 2) * dr0 + (-(3) / 7)
    * ds0 + (5 / 7) * ds1) v) (pxmg2m2 : 0 < xmg2m2 v) :
    HasDerivAt (fun v => D2GDR0R0 (t v) (p v) (xfe2m4 v) (xfe2m13 v) (xfe2m2 v) (xmg2m4 v) (xmg2m13 v) (xmg2m2 v))
    (((D3GDR0R0R0 (t v) (xfe2m4 v) (xfe2m13 v) (xfe2m2 v) (xmg2m4 v) (xmg2m13 v) (xmg2m2 v)) * dr0) +
    ((D3GDR0R0DT (xfe2m4 v) (xfe2m13 v) (xfe2m2 v) (xmg2m4 v) (xmg2m13 v) (xmg2m2 v)) * dt + D3GDR0R0DP * dp) +
    ((D3GDR0R0S0 (t v) (xfe2m4 v) (xfe2m13 v) (xfe2m2 v) (xmg2m4 v) (xmg2m13 v) (xmg2m2 v)) * ds0 + (D3GDR0R0S1
    (t v) (xfe2m4 v) (xfe2m13 v) (xfe2m2 v) (xmg2m4 v) (xmg2m13 v) (xmg2m2 v)) * ds1)) v := by
  have nxfe2m4 := pxfe2m4.ne'
  have nxfe2m13 := pxfe2m13.ne'
  have nxfe2m2 := pxfe2m2.ne'
  have nxmg2m4 := pxmg2m4.ne'
  have nxmg2m13 := pxmg2m13.ne'
  have nxmg2m2 := pxmg2m2.ne'
  try simp only [WV123, WG123, WV4, WG4, VX123_4, GX123_4, GRR, D2GDR0R0, D3GDR0R0DT, VRR, D3GDR0R0DP, D3GDR0R0R0, D3GDR0R0S0, D3GDR0R0S1, zero_mul, mul_zero, add_zero, zero_add, sub_zero]
  refine HasDerivAt.congr_deriv (by hdo) ?_
  ring

lemma c_D2GDR0S0 {t p r0 s0 s1 xfe2m4 xfe2m13 xfe2m2 xmg2m4 xmg2m13 xmg2m2 : ℝ → ℝ} {v dt dp dr0 ds0 ds1 : ℝ} (ht :
    HasDerivAt t dt v) (hp : HasDerivAt p dp v) (hr0 : HasDerivAt r0 dr0 v) (hs0 : HasDerivAt s0 ds0 v) (hs1 :
    HasDerivAt s1 ds1 v) (hxfe2m4 : HasDerivAt xfe2m4 ((1 / 2) * dr0 + (3 / 7) * ds0 + (2 / 7) * ds1) v)
    (pxfe2m4 : 0 < xfe2m4 v) (hxfe2m13 : HasDerivAt xfe2m13 ((1 / 2) * dr0 + (-(4) / 7) * ds0 + (2 / 7) * ds1)
    v) (pxfe2m13 : 0 < xfe2m13 v) (hxfe2m2 : HasDerivAt xfe2m2 ((1 / 2) * dr0 + (3 / 7) * ds0 + (-(5) / 7) *
    ds1) v) (pxfe2m2 : 0 < xfe2m2 v) (hxmg2m4 : HasDerivAt xmg2m4 ((-(1) / 2) * dr0 + (-(3) / 7) * ds0 + (-(2) /
    7) * ds1) v) (pxmg2m4 : 0 < xmg2m4 v) (hxmg2m13 : HasDerivAt xmg2m13 ((-(1) / 2) * dr0 + (4 / 7) * ds0 +
    (-(2) / 7) * ds1) v) (pxmg2m13 : 0 < xmg2m13 v) (hxmg2m2 : HasDerivAt xmg2m2 ((-(1) / 2) * dr0 + (-(3) / 7)
    * ds0 + (5 / 7) * ds1) v) (pxmg2m2 : 0 < xmg2m2 v) :
    HasDerivAt (fun v => D2GDR0S0 (t v) (p v) (xfe2m4 v) (xfe2m13 v) (xfe2m2 v) (xmg2m4 v) (xmg2m13 v) (xmg2m2 v))
    (((D3GDR0R0S0 (t v) (xfe2m4 v) (xfe2m13 v) (xfe2m2 v) (xmg2m4 v) (xmg2m13 v) (xmg2m2 v)) * dr0) +
    ((D3GDR0S0DT (xfe2m4 v) (xfe2m13 v) (xfe2m2 v) (xmg2m4 v) (xmg2m13 v) (xmg2m2 v)) * dt + D3GDR0S0DP * dp) +
    ((D3GDR0S0S0 (t v) (xfe2m4 v) (xfe2m13 v) (xfe2m2 v) (xmg2m4 v) (xmg2m13 v) (xmg2m2 v)) * ds0 + (D3GDR0S0S1
    (t v) (xfe2m4 v) (xfe2m13 v) (xfe2m2 v) (xmg2m4 v) (xmg2m13 v) (xmg2m2 v)) * ds1)) v := by
  have nxfe2m4 := pxfe2m4.ne'
  have nxfe2m13 := pxfe2m13.ne'
  have nxfe2m2 := pxfe2m2.ne'
  have nxmg2m4 := pxmg2m4.ne'
  have nxmg2m13 := pxmg2m13.ne'
  have nxmg2m2 := pxmg2m2.ne'
  try simp only [WV123, WG123, WV13, WG13, WV4, WG4, VX123_4, GX123_4, VX13_24, GX13_24, GRS13, D2GDR0S0, D3GDR0S0DT, VRS13, D3GDR0S0DP, D3GDR0R0S0, D3GDR0S0S0, D3GDR0S0S1, zero_mul, mul_zero, add_zero, zero_add, sub_zero]
  refine HasDerivAt.congr_deriv (by hdo) ?_
  ring

lemma c_D2GDR0S1 {t p r0 s0 s1 xfe2m4 xfe2m13 xfe2m2 xmg2m4 xmg2m13 xmg2m2 : ℝ → ℝ} {v dt dp dr0 ds0 ds1 : ℝ} (ht :
    HasDerivAt t dt v) (hp : HasDerivAt p dp v) (hr0 : HasDerivAt r0 dr0 v) (hs0 : HasDerivAt s0 ds0 v) (hs1 :
    HasDerivAt s1 ds1 v) (hxfe2m4 : HasDerivAt xfe2m4 ((1 / 2) * dr0 + (3 / 7) * ds0 + (2 / 7) * ds1) v)
    (pxfe2m4 : 0 < xfe2m4 v) (hxfe2m13 : HasDerivAt xfe2m13 ((1 / 2) * dr0 + (-(4) / 7) * ds0 + (2 / 7) * ds1)
    v) (pxfe2m13 : 0 < xfe2m13 v) (hxfe2m2 : HasDerivAt xfe2m2 ((1 / 2) * dr0 + (3 / 7) * ds0 + (-(5) / 7) *
    ds1) v) (pxfe2m2 : 0 < xfe2m2 v) (hxmg2m4 : HasDerivAt xmg2m4 ((-(1) / 2) * dr0 + (-(3) / 7) * ds0 + (-(2) /
    7) * ds1) v) (pxmg2m4 : 0 < xmg2m4 v) (hxmg2m13 : HasDerivAt xmg2m13 ((-(1) / 2) * dr0 + (4 / 7) * ds0 +
    (-(2) / 7) * ds1) v) (pxmg2m13 : 0 < xmg2m13 v) (hxmg2m2 : HasDerivAt xmg2m2 ((-(1) / 2) * dr0 + (-(3) / 7)
    * ds0 + (5 / 7) * ds1) v) (pxmg2m2 : 0 < xmg2m2 v) :
    HasDerivAt (fun v => D2GDR0S1 (t v) (p v) (xfe2m4 v) (xfe2m13 v) (xfe2m2 v) (xmg2m4 v) (xmg2m13 v) (xmg2m2 v))
    (((D3GDR0R0S1 (t v) (xfe2m4 v) (xfe2m13 v) (xfe2m2 v) (xmg2m4 v) (xmg2m13 v) (xmg2m2 v)) * dr0) +
    ((D3GDR0S1DT (xfe2m4 v) (xfe2m13 v) (xfe2m2 v) (xmg2m4 v) (xmg2m13 v) (xmg2m2 v)) * dt + D3GDR0S1DP * dp) +
    ((D3GDR0S0S1 (t v) (xfe2m4 v) (xfe2m13 v) (xfe2m2 v) (xmg2m4 v) (xmg2m13 v) (xmg2m2 v)) * ds0 + (D3GDR0S1S1
    (t v) (xfe2m4 v) (xfe2m13 v) (xfe2m2 v) (xmg2m4 v) (xmg2m13 v) (xmg2m2 v)) * ds1)) v := by
  have nxfe2m4 := pxfe2m4.ne'
  have nxfe2m13 := pxfe2m13.ne'
  have nxfe2m2 := pxfe2m2.ne'
  have nxmg2m4 := pxmg2m4.ne'
  have nxmg2m13 := pxmg2m13.ne'
  have nxmg2m2 := pxmg2m2.ne'
  try simp only [WV123, WG123, WV2, WG2, WV4, WG4, VX123_4, GX123_4, VX134_2, GX134_2, GRS2, D2GDR0S1, D3GDR0S1DT, VRS2, D3GDR0S1DP, D3GDR0R0S1, D3GDR0S0S1, D3GDR0S1S1, zero_mul, mul_zero, add_zero, zero_add, sub_zero]
  refine HasDerivAt.congr_deriv (by hdo) ?_
  ring

lemma c_D2GDR0DT {t p r0 s0 s1 xfe2m4 xfe2m13 xfe2m2 xmg2m4 xmg2m13 xmg2m2 : ℝ → ℝ} {v dt dp dr0 ds0 ds1 : ℝ} (ht :
    HasDerivAt t dt v) (hp : HasDerivAt p dp v) (hr0 : HasDerivAt r0 dr0 v) (hs0 : HasDerivAt s0 ds0 v) (hs1 :
    HasDerivAt s1 ds1 v) (hxfe2m4 : HasDerivAt xfe2m4 ((1 / 2) * dr0 + (3 / 7) * ds0 + (2 / 7) * ds1) v)
    (pxfe2m4 : 0 < xfe2m4 v) (hxfe2m13 : HasDerivAt xfe2m13 ((1 / 2) * dr0 + (-(4) / 7) * ds0 + (2 / 7) * ds1)
    v) (pxfe2m13 : 0 < xfe2m13 v) (hxfe2m2 : HasDerivAt xfe2m2 ((1 / 2) * dr0 + (3 / 7) * ds0 + (-(5) / 7) *
    ds1) v) (pxfe2m2 : 0 < xfe2m2 v) (hxmg2m4 : HasDerivAt xmg2m4 ((-(1) / 2) * dr0 + (-(3) / 7) * ds0 + (-(2) /
    7) * ds1) v) (pxmg2m4 : 0 < xmg2m4 v) (hxmg2m13 : HasDerivAt xmg2m13 ((-(1) / 2) * dr0 + (4 / 7) * ds0 +
    (-(2) / 7) * ds1) v) (pxmg2m13 : 0 < xmg2m13 v) (hxmg2m2 : HasDerivAt xmg2m2 ((-(1) / 2) * dr0 + (-(3) / 7)
    * ds0 + (5 / 7) * ds1) v) (pxmg2m2 : 0 < xmg2m2 v) :
    HasDerivAt (fun v => D2GDR0DT (xfe2m4 v) (xfe2m13 v) (xfe2m2 v) (xmg2m4 v) (xmg2m13 v) (xmg2m2 v))
    (((D3GDR0R0DT (xfe2m4 v) (xfe2m13 v) (xfe2m2 v) (xmg2m4 v) (xmg2m13 v) (xmg2m2 v)) * dr0) + (D3GDR0DT2 * dt +
    D3GDR0DTDP * dp) + ((D3GDR0S0DT (xfe2m4 v) (xfe2m13 v) (xfe2m2 v) (xmg2m4 v) (xmg2m13 v) (xmg2m2 v)) * ds0 +
    (D3GDR0S1DT (xfe2m4 v) (xfe2m13 v) (xfe2m2 v) (xmg2m4 v) (xmg2m13 v) (xmg2m2 v)) * ds1)) v := by
  have nxfe2m4 := pxfe2m4.ne'
  have nxfe2m13 := pxfe2m13.ne'
  have nxfe2m2 := pxfe2m2.ne'
  have nxmg2m4 := pxmg2m4.ne'
  have nxmg2m13 := pxmg2m13.ne'
  have nxmg2m2 := pxmg2m2.ne'
  try simp only [D2GDR0DT, D3GDR0DT2, D3GDR0DTDP, D3GDR0R0DT, D3GDR0S0DT, D3GDR0S1DT, zero_mul, mul_zero, add_zero, zero_add, sub_zero]
  refine HasDerivAt.congr_deriv (by hdo) ?_
  ring

lemma c_D2GDR0DP {t p r0 s0 s1 : ℝ → ℝ} {v dt dp dr0 ds0 ds1 : ℝ} (ht : HasDerivAt t dt v) (hp : HasDerivAt p dp v) (hr0 :
    HasDerivAt r0 dr0 v) (hs0 : HasDerivAt s0 ds0 v) (hs1 : HasDerivAt s1 ds1 v) :
    HasDerivAt (fun v => D2GDR0DP (r0 v) (s0 v) (s1 v))
    ((D3GDR0R0DP * dr0) + (D3GDR0DTDP * dt + D3GDR0DP2 * dp) + (D3GDR0S0DP * ds0 + D3GDR0S1DP * ds1)) v := by
  try simp only [VR, WV123, WV4, VX123_4, VRR, WV13, VX13_24, VRS13, WV2, VX134_2, VRS2, D2GDR0DP, D3GDR0DTDP, D3GDR0DP2, D3GDR0R0DP, D3GDR0S0DP, D3GDR0S1DP, zero_mul, mul_zero, add_zero, zero_add, sub_zero]
  refine HasDerivAt.congr_deriv (by hdo) ?_
  ring

lemma c_D2GDS0S0 {t p r0 s0 s1 xfe2m4 xfe2m13 xfe2m2 xmg2m4 xmg2m13 xmg2m2 : ℝ → ℝ} {v dt dp dr0 ds0 ds1 : ℝ} (ht :
    HasDerivAt t dt v) (hp : HasDerivAt p dp v) (hr0 : HasDerivAt r0 dr0 v) (hs0 : HasDerivAt s0 ds0 v) (hs1 :
    HasDerivAt s1 ds1 v) (hxfe2m4 : HasDerivAt xfe2m4 ((1 / 2) * dr0 + (3 / 7) * ds0 + (2 / 7) * ds1) v)
    (pxfe2m4 : 0 < xfe2m4 v) (hxfe2m13 : HasDerivAt xfe2m13 ((1 / 2) * dr0 + (-(4) / 7) * ds0 + (2 / 7) * ds1)
    v) (pxfe2m13 : 0 < xfe2m13 v) (hxfe2m2 : HasDerivAt xfe2m2 ((1 / 2) * dr0 + (3 / 7) * ds0 + (-(5) / 7) *
    ds1) v) (pxfe2m2 : 0 < xfe2m2 v) (hxmg2m4 : HasDerivAt xmg2m4 ((-(1) / 2) * dr0 + (-(3) / 7) * ds0 + (-(2) /
    7) * ds1) v) (pxmg2m4 : 0 < xmg2m4 v) (hxmg2m13 : HasDerivAt xmg2m13 ((-(1) / 2) * dr0 + (4 / 7) * ds0 +
    (-(2) / 7) * ds1) v) (pxmg2m13 : 0 < xmg2m13 v) (hxmg2m2 : HasDerivAt xmg2m2 ((-(1) / 2) * dr0 + (-(3) / 7)
    * ds0 + (5 / 7) * ds1) v) (pxmg2m2 : 0 < xmg2m2 v) :
    HasDerivAt (fun v => D2GDS0S0 (t v) (p v) (xfe2m4 v) (xfe2m13 v) (xfe2m2 v) (xmg2m4 v) (xmg2m13 v) (xmg2m2 v))
    (((D3GDR0S0S0 (t v) (xfe2m4 v) (xfe2m13 v) (xfe2m2 v) (xmg2m4 v) (xmg2m13 v) (xmg2m2 v)) * dr0) +
    ((D3GDS0S0DT (xfe2m4 v) (xfe2m13 v) (xfe2m2 v) (xmg2m4 v) (xmg2m13 v) (xmg2m2 v)) * dt + D3GDS0S0DP * dp) +
    ((D3GDS0S0S0 (t v) (xfe2m4 v) (xfe2m13 v) (xfe2m2 v) (xmg2m4 v) (xmg2m13 v) (xmg2m2 v)) * ds0 + (D3GDS0S0S1
    (t v) (xfe2m4 v) (xfe2m13 v) (xfe2m2 v) (xmg2m4 v) (xmg2m13 v) (xmg2m2 v)) * ds1)) v := by
  have nxfe2m4 := pxfe2m4.ne'
  have nxfe2m13 := pxfe2m13.ne'
  have nxfe2m2 := pxfe2m2.ne'
  have nxmg2m4 := pxmg2m4.ne'
  have nxmg2m13 := pxmg2m13.ne'
  have nxmg2m2 := pxmg2m2.ne'
  try simp only [WV123, WG123, WV13, WG13, WV4, WG4, VX123_4, GX123_4, VX13_24, GX13_24, GS13S13, D2GDS0S0, D3GDS0S0DT, VS13S13, D3GDS0S0DP, D3GDR0S0S0, D3GDS0S0S0, D3GDS0S0S1, zero_mul, mul_zero, add_zero, zero_add, sub_zero]
  refine HasDerivAt.congr_deriv (by hdo) ?_
  ring

lemma c_D2GDS0S1 {t p r0 s0 s1 xfe2m4 xfe2m13 xfe2m2 xmg2m4 xmg2m13 xmg2m2 : ℝ → ℝ} {v dt dp dr0 ds0 ds1 : ℝ} (ht :
    HasDerivAt t dt v) (hp : HasDerivAt p dp v) (hr0 : HasDerivAt r0 dr0 v) (hs0 : HasDerivAt s0 ds0 v) (hs1 :
    HasDerivAt s1 ds1 v) (hxfe2m4 : HasDerivAt xfe2m4 ((1 / 2) * dr0 + (3 / 7) * ds0 + (2 / 7) * ds1) v)
    (pxfe2m4 : 0 < xfe2m4 v) (hxfe2m13 : HasDerivAt xfe2m13 ((1 / 2) * dr0 + (-(4) / 7) * ds0 + (2 / 7) * ds1)
    v) (pxfe2m13 : 0 < xfe2m13 v) (hxfe2m2 : HasDerivAt xfe2m2 ((1 / 2) * dr0 + (3 / 7) * ds0 + (-(5) / 7) *
    ds1) v) (pxfe2m2 : 0 < xfe2m2 v) (hxmg2m4 : HasDerivAt xmg2m4 ((-(1) / 2) * dr0 + (-(3) / 7) * ds0 + (-(2) /
    7) * ds1) v) (pxmg2m4 : 0 < xmg2m4 v) (hxmg2m13 : HasDerivAt xmg2m13 ((-(1) / 2) * dr0 + (4 / 7) * ds0 +
    (-(2) / 7) * ds1) v) (pxmg2m13 : 0 < xmg2m13 v) (hxmg2m2 : HasDerivAt xmg2m2 ((-(1) / 2) * dr0 + (-(3) / 7)
    * ds0 + (5 / 7) * ds1) v) (pxmg2m2 : 0 < xmg2m2 v) :
    HasDerivAt (fun v => D2GDS0S1 (t v) (p v) (xfe2m4 v) (xfe2m13 v) (xfe2m2 v) (xmg2m4 v) (xmg2m13 v) (xmg2m2 v))
    (((D3GDR0S0S1 (t v) (xfe2m4 v) (xfe2m13 v) (xfe2m2 v) (xmg2m4 v) (xmg2m13 v) (xmg2m2 v)) * dr0) +
    ((D3GDS0S1DT (xfe2m4 v) (xfe2m13 v) (xfe2m2 v) (xmg2m4 v) (xmg2m13 v) (xmg2m2 v)) * dt + D3GDS0S1DP * dp) +
    ((D3GDS0S0S1 (t v) (xfe2m4 v) (xfe2m13 v) (xfe2m2 v) (xmg2m4 v) (xmg2m13 v) (xmg2m2 v)) * ds0 + (D3GDS0S1S1
    (t v) (xfe2m4 v) (xfe2m13 v) (xfe2m2 v) (xmg2m4 v) (xmg2m13 v) (xmg2m2 v)) * ds1)) v := by
  have nxfe2m4 := pxfe2m4.ne'
  have nxfe2m13 := pxfe2m13.ne'
  have nxfe2m2 := pxfe2m2.ne'
  have nxmg2m4 := pxmg2m4.ne'
  have nxmg2m13 := pxmg2m13.ne'
  have nxmg2m2 := pxmg2m2.ne'
  try simp only [WV123, WG123, WV13, WG13, WV2, WG2, WV4, WG4, VX123_4, GX123_4, VX13_24, GX13_24, VX134_2, GX134_2, GS13S2, D2GDS0S1, D3GDS0S1DT, VS13S2, D3GDS0S1DP, D3GDR0S0S1, D3GDS0S0S1, D3GDS0S1S1, zero_mul, mul_zero, add_zero, zero_add, sub_zero]
  refine HasDerivAt.congr_deriv (by hdo) ?_
  ring

lemma c_D2GDS0DT {t p r0 s0 s1 xfe2m4 xfe2m13 xfe2m2 xmg2m4 xmg2m13 xmg2m2 : ℝ → ℝ} {v dt dp dr0 ds0 ds1 : ℝ} (ht :
    HasDerivAt t dt v) (hp : HasDerivAt p dp v) (hr0 : HasDerivAt r0 dr0 v) (hs0 : HasDerivAt s0 ds0 v) (hs1 :
    HasDerivAt s1 ds1 v) (hxfe2m4 : HasDerivAt xfe2m4 ((1 / 2) * dr0 + (3 / 7) * ds0 + (2 / 7) * ds1) v)
    (pxfe2m4 : 0 < xfe2m4 v) (hxfe2m13 : HasDerivAt xfe2m13 ((1 / 2) * dr0 + (-(4) / 7) * ds0 + (2 / 7) * ds1)
    v) (pxfe2m13 : 0 < xfe2m13 v) (hxfe2m2 : HasDerivAt xfe2m2 ((1 / 2) * dr0 + (3 / 7) * ds0 + (-(5) / 7) *
    ds1) v) (pxfe2m2 : 0 < xfe2m2 v) (hxmg2m4 : HasDerivAt xmg2m4 ((-(1) / 2) * dr0 + (-(3) / 7) * ds0 + (-(2) /
    7) * ds1) v) (pxmg2m4 : 0 < xmg2m4 v) (hxmg2m13 : HasDerivAt xmg2m13 ((-(1) / 2) * dr0 + (4 / 7) * ds0 +
    (-(2) / 7) * ds1) v) (pxmg2m13 : 0 < xmg2m13 v) (hxmg2m2 : HasDerivAt xmg2m2 ((-(1) / 2) * dr0 + (-(3) / 7)
    * ds0 + (5 / 7) * ds1) v) (pxmg2m2 : 0 < xmg2m2 v) :
    HasDerivAt (fun v => D2GDS0DT (xfe2m4 v) (xfe2m13 v) (xfe2m2 v) (xmg2m4 v) (xmg2m13 v) (xmg2m2 v))
    (((D3GDR0S0DT (xfe2m4 v) (xfe2m13 v) (xfe2m2 v) (xmg2m4 v) (xmg2m13 v) (xmg2m2 v)) * dr0) + (D3GDS0DT2 * dt +
    D3GDS0DTDP * dp) + ((D3GDS0S0DT (xfe2m4 v) (xfe2m13 v) (xfe2m2 v) (xmg2m4 v) (xmg2m13 v) (xmg2m2 v)) * ds0 +
    (D3GDS0S1DT (xfe2m4 v) (xfe2m13 v) (xfe2m2 v) (xmg2m4 v) (xmg2m13 v) (xmg2m2 v)) * ds1)) v := by
  have nxfe2m4 := pxfe2m4.ne'
  have nxfe2m13 := pxfe2m13.ne'
  have nxfe2m2 := pxfe2m2.ne'
  have nxmg2m4 := pxmg2m4.ne'
  have nxmg2m13 := pxmg2m13.ne'
  have nxmg2m2 := pxmg2m2.ne'
  try simp only [D2GDS0DT, D3GDS0DT2, D3GDS0DTDP, D3GDR0S0DT, D3GDS0S0DT, D3GDS0S1DT, zero_mul, mul_zero, add_zero, zero_add, sub_zero]
  refine HasDerivAt.congr_deriv (by hdo) ?_
  ring

lemma c_D2GDS0DP {t p r0 s0 s1 : ℝ → ℝ} {v dt dp dr0 ds0 ds1 : ℝ} (ht : HasDerivAt t dt v) (hp : HasDerivAt p dp v) (hr0 :
    HasDerivAt r0 dr0 v) (hs0 : HasDerivAt s0 ds0 v) (hs1 : HasDerivAt s1 ds1 v) :
    HasDerivAt (fun v => D2GDS0DP (r0 v) (s0 v) (s1 v))
    ((D3GDR0S0DP * dr0) + (D3GDS0DTDP * dt + D3GDS0DP2 * dp) + (D3GDS0S0DP * ds0 + D3GDS0S1DP * ds1)) v := by
  try simp only [VEX, VDEX, VS13, WV123, WV13, WV4, VX123_4, VX13_24, VRS13, VS13S13, WV2, VX134_2, VS13S2, D2GDS0DP, D3GDS0DTDP, D3GDS0DP2, D3GDR0S0DP, D3GDS0S0DP, D3GDS0S1DP, zero_mul, mul_zero, add_zero, zero_add, sub_zero]
  refine HasDerivAt.congr_deriv (by hdo) ?_
  ring

lemma c_D2GDS1S1 {t p r0 s0 s1 xfe2m4 xfe2m13 xfe2m2 xmg2m4 xmg2m13 xmg2m2 : ℝ → ℝ} {v dt dp dr0 ds0 ds1 : ℝ} (ht :
    HasDerivAt t dt v) (hp : HasDerivAt p dp v) (hr0 : HasDerivAt r0 dr0 v) (hs0 : HasDerivAt s0 ds0 v) (hs1 :
    HasDerivAt s1 ds1 v) (hxfe2m4 : HasDerivAt xfe2m4 ((1 / 2) * dr0 + (3 / 7) * ds0 + (2 / 7) * ds1) v)
    (pxfe2m4 : 0 < xfe2m4 v) (hxfe2m13 : HasDerivAt xfe2m13 ((1 / 2) * dr0 + (-(4) / 7) * ds0 + (2 / 7) * ds1)
    v) (pxfe2m13 : 0 < xfe2m13 v) (hxfe2m2 : HasDerivAt xfe2m2 ((1 / 2) * dr0 + (3 / 7) * ds0 + (-(5) / 7) *
    ds1) v) (pxfe2m2 : 0 < xfe2m2 v) (hxmg2m4 : HasDerivAt xmg2m4 ((-(1) / 2) * dr0 + (-(3) / 7) * ds0 + (-(2) /
    7) * ds1) v) (pxmg2m4 : 0 < xmg2m4 v) (hxmg2m13 : HasDerivAt xmg2m13 ((-(1) / 2) * dr0 + (4 / 7) * ds0 +
    (-(2) / 7) * ds1) v) (pxmg2m13 : 0 < xmg2m13 v) (hxmg2m2 : HasDerivAt xmg2m2 ((-(1) / 2) * dr0 + (-(3) / 7)
    * ds0 + (5 / 7) * ds1) v) (pxmg2m2 : 0 < xmg2m2 v) :
    HasDerivAt (fun v => D2GDS1S1 (t v) (p v) (xfe2m4 v) (xfe2m13 v) (xfe2m2 v) (xmg2m4 v) (xmg2m13 v) (xmg2m2 v))
    (((D3GDR0S1S1 (t v) (xfe2m4 v) (xfe2m13 v) (xfe2m2 v) (xmg2m4 v) (xmg2m13 v) (xmg2m2 v)) * dr0) +
    ((D3GDS1S1DT (xfe2m4 v) (xfe2m13 v) (xfe2m2 v) (xmg2m4 v) (xmg2m13 v) (xmg2m2 v)) * dt + D3GDS1S1DP * dp) +
    ((D3GDS0S1S1 (t v) (xfe2m4 v) (xfe2m13 v) (xfe2m2 v) (xmg2m4 v) (xmg2m13 v) (xmg2m2 v)) * ds0 + (D3GDS1S1S1
    (t v) (xfe2m4 v) (xfe2m13 v) (xfe2m2 v) (xmg2m4 v) (xmg2m13 v) (xmg2m2 v)) * ds1)) v := by
  have nxfe2m4 := pxfe2m4.ne'
  have nxfe2m13 := pxfe2m13.ne'
  have nxfe2m2 := pxfe2m2.ne'
  have nxmg2m4 := pxmg2m4.ne'
  have nxmg2m13 := pxmg2m13.ne'
  have nxmg2m2 := pxmg2m2.ne'
  try simp only [WV123, WG123, WV2, WG2, WV4, WG4, VX123_4, GX123_4, VX134_2, GX134_2, GS2S2, D2GDS1S1, D3GDS1S1DT, VS2S2, D3GDS1S1DP, D3GDR0S1S1, D3GDS0S1S1, D3GDS1S1S1, zero_mul, mul_zero, add_zero, zero_add, sub_zero]
  refine HasDerivAt.congr_deriv (by hdo) ?_
  ring

lemma c_D2GDS1DT {t p r0 s0 s1 xfe2m4 xfe2m13 xfe2m2 xmg2m4 xmg2m13 xmg2m2 : ℝ → ℝ} {v dt dp dr0 ds0 ds1 : ℝ} (ht :
    HasDerivAt t dt v) (hp : HasDerivAt p dp v) (hr0 : HasDerivAt r0 dr0 v) (hs0 : HasDerivAt s0 ds0 v) (hs1 :
    HasDerivAt s1 ds1 v) (hxfe2m4 : HasDerivAt xfe2m4 ((1 / 2) * dr0 + (3 / 7) * ds0 + (2 / 7) * ds1) v)
    (pxfe2m4 : 0 < xfe2m4 v) (hxfe2m13 : HasDerivAt xfe2m13 ((1 / 2) * dr0 + (-(4) / 7) * ds0 + (2 / 7) * ds1)
    v) (pxfe2m13 : 0 < xfe2m13 v) (hxfe2m2 : HasDerivAt xfe2m2 ((1 / 2) * dr0 + (3 / 7) * ds0 + (-(5) / 7) *
    ds1) v) (pxfe2m2 : 0 < xfe2m2 v) (hxmg2m4 : HasDerivAt xmg2m4 ((-(1) / 2) * dr0 + (-(3) / 7) * ds0 + (-(2) /
    7) * ds1) v) (pxmg2m4 : 0 < xmg2m4 v) (hxmg2m13 : HasDerivAt xmg2m13 ((-(1) / 2) * dr0 + (4 / 7) * ds0 +
    (-(2) / 7) * ds1) v) (pxmg2m13 : 0 < xmg2m13 v) (hxmg2m2 : HasDerivAt xmg2m2 ((-(1) / 2) * dr0 + (-(3) / 7)
    * ds0 + (5 / 7) * ds1) v) (pxmg2m2 : 0 < xmg2m2 v) :
    HasDerivAt (fun v => D2GDS1DT (xfe2m4 v) (xfe2m13 v) (xfe2m2 v) (xmg2m4 v) (xmg2m13 v) (xmg2m2 v))
    (((D3GDR0S1DT (xfe2m4 v) (xfe2m13 v) (xfe2m2 v) (xmg2m4 v) (xmg2m13 v) (xmg2m2 v)) * dr0) + (D3GDS1DT2 * dt +
    D3GDS1DTDP * dp) + ((D3GDS0S1DT (xfe2m4 v) (xfe2m13 v) (xfe2m2 v) (xmg2m4 v) (xmg2m13 v) (xmg2m2 v)) * ds0 +
    (D3GDS1S1DT (xfe2m4 v) (xfe2m13 v) (xfe2m2 v) (xmg2m4 v) (xmg2m13 v) (xmg2m2 v)) * ds1)) v := by
  have nxfe2m4 := pxfe2m4.ne'
  have nxfe2m13 := pxfe2m13.ne'
  have nxfe2m2 := pxfe2m2.ne'
  have nxmg2m4 := pxmg2m4.ne'
  have nxmg2m13 := pxmg2m13.ne'
  have nxmg2m2 := pxmg2m2.ne'
  try simp only [D2GDS1DT, D3GDS1DT2, D3GDS1DTDP, D3GDR0S1DT, D3GDS0S1DT, D3GDS1S1DT, zero_mul, mul_zero, add_zero, zero_add, sub_zero]
  refine HasDerivAt.congr_deriv (by hdo) ?_
  ring

lemma c_D2GDS1DP {t p r0 s0 s1 : ℝ → ℝ} {v dt dp dr0 ds0 ds1 : ℝ} (ht : HasDerivAt t dt v) (hp : HasDerivAt p dp v) (hr0 :
    HasDerivAt r0 dr0 v) (hs0 : HasDerivAt s0 ds0 v) (hs1 : HasDerivAt s1 ds1 v) :
    HasDerivAt (fun v => D2GDS1DP (r0 v) (s0 v) (s1 v))
    ((D3GDR0S1DP * dr0) + (D3GDS1DTDP * dt + D3GDS1DP2 * dp) + (D3GDS0S1DP * ds0 + D3GDS1S1DP * ds1)) v := by
  try simp only [VEX, VDEX, VS2, WV123, WV2, WV4, VX123_4, VX134_2, VRS2, WV13, VX13_24, VS13S2, VS2S2, D2GDS1DP, D3GDS1DTDP, D3GDS1DP2, D3GDR0S1DP, D3GDS0S1DP, D3GDS1S1DP, zero_mul, mul_zero, add_zero, zero_add, sub_zero]
  refine HasDerivAt.congr_deriv (by hdo) ?_
  ring

lemma c_D2GDT2 {t p r0 s0 s1 : ℝ → ℝ} {v dt dp dr0 ds0 ds1 : ℝ} (ht : HasDerivAt t dt v) (hp : HasDerivAt p dp v) (hr0 :
    HasDerivAt r0 dr0 v) (hs0 : HasDerivAt s0 ds0 v) (hs1 : HasDerivAt s1 ds1 v) :
    HasDerivAt (fun v => D2GDT2)
    ((D3GDR0DT2 * dr0) + (D3GDT3 * dt + D3GDT2DP * dp) + (D3GDS0DT2 * ds0 + D3GDS1DT2 * ds1)) v := by
  try simp only [D2GDT2, D3GDT3, D3GDT2DP, D3GDR0DT2, D3GDS0DT2, D3GDS1DT2, zero_mul, mul_zero, add_zero, zero_add, sub_zero]
  refine HasDerivAt.congr_deriv (by hdo) ?_
  ring

lemma c_D2GDTDP {t p r0 s0 s1 : ℝ → ℝ} {v dt dp dr0 ds0 ds1 : ℝ} (ht : HasDerivAt t dt v) (hp : HasDerivAt p dp v) (hr0 :
    HasDerivAt r0 dr0 v) (hs0 : HasDerivAt s0 ds0 v) (hs1 : HasDerivAt s1 ds1 v) :
    HasDerivAt (fun v => D2GDTDP)
    ((D3GDR0DTDP * dr0) + (D3GDT2DP * dt + D3GDTDP2 * dp) + (D3GDS0DTDP * ds0 + D3GDS1DTDP * ds1)) v := by
  try simp only [D2GDTDP, D3GDT2DP, D3GDTDP2, D3GDR0DTDP, D3GDS0DTDP, D3GDS1DTDP, zero_mul, mul_zero, add_zero, zero_add, sub_zero]
  refine HasDerivAt.congr_deriv (by hdo) ?_
  ring

lemma c_D2GDP2 {t p r0 s0 s1 : ℝ → ℝ} {v dt dp dr0 ds0 ds1 : ℝ} (ht : HasDerivAt t dt v) (hp : HasDerivAt p dp v) (hr0 :
    HasDerivAt r0 dr0 v) (hs0 : HasDerivAt s0 ds0 v) (hs1 : HasDerivAt s1 ds1 v) :
    HasDerivAt (fun v => D2GDP2)
    ((D3GDR0DP2 * dr0) + (D3GDTDP2 * dt + D3GDP3 * dp) + (D3GDS0DP2 * ds0 + D3GDS1DP2 * ds1)) v := by
  try simp only [D2GDP2, D3GDTDP2, D3GDP3, D3GDR0DP2, D3GDS0DP2, D3GDS1DP2, zero_mul, mul_zero, add_zero, zero_add, sub_zero]
  refine HasDerivAt.congr_deriv (by hdo) ?_
  ring

attribute [local irreducible] S H V G WG123 WG4 GX123_4 GRR WG13 GX13_24 GRS13 WG2 GX134_2 GRS2 DGDR0 GEX
    GDEX GS13 GS13S13 GS13S2 DGDS0 GS2 GS2S2 DGDS1 DGDT DGDP D2GDR0R0 D2GDR0S0 D2GDR0S1 D2GDR0DT D2GDR0DP
    D2GDS0S0 D2GDS0S1 D2GDS0DT D2GDS0DP D2GDS1S1 D2GDS1DT D2GDS1DP D3GDR0R0R0 D3GDR0R0S0 D3GDR0R0S1 D3GDR0R0DT
    D3GDR0S0S0 D3GDR0S0S1 D3GDR0S0DT D3GDR0S1S1 D3GDR0S1DT D3GDS0S0S0 D3GDS0S0S1 D3GDS0S0DT D3GDS0S1S1
    D3GDS0S1DT D3GDS1S1S1 D3GDS1S1DT

lemma gr_g (y : Var 1 2 → ℝ) (hy : Dom y) :
    Gr (fun y => (tables (raw y) y).g) y ((tables (raw y) y).at1) := by
  refine Gr.of_lines ?_ fun u => ?_
  · have hp := pos y hy
    change DifferentiableAt ℝ (fun y => G (y (.inl iT)) (y (.inl iP)) (y (.inl (.inl 0))) (y (.inr 0)) (y (.inr 1)) (raw y 0) (raw y 1) (raw y 2) (raw y 3) (raw y 4) (raw y 5)) y
    have d0 := raw_diff 0 y
    have q0 := hp.1
    have n0 := q0.ne'
    have d1 := raw_diff 1 y
    have q1 := hp.2.1
    have n1 := q1.ne'
    have d2 := raw_diff 2 y
    have q2 := hp.2.2.1
    have n2 := q2.ne'
    have d3 := raw_diff 3 y
    have q3 := hp.2.2.2.1
    have n3 := q3.ne'
    have d4 := raw_diff 4 y
    have q4 := hp.2.2.2.2.1
    have n4 := q4.ne'
    have d5 := raw_diff 5 y
    have q5 := hp.2.2.2.2.2
    have n5 := q5.ne'
    try simp only [H0, HR, HS13, HS2, HRR, HRS13, HRS2, HS13S13, HS13S2, HS2S2, H, S, WV123, WV4, VX123_4, V0, VR, VEX, VDEX, VS13, VS2, VRR, WV13, VX13_24, VRS13, WV2, VX134_2, VRS2, VS13S13, VS13S2, VS2S2, V, G, zero_mul, mul_zero, add_zero, zero_add, sub_zero]
    ddo
  · have hp := pos y hy
    have h := c_G (hl y u ((.inl iT))) (hl y u ((.inl iP))) (hl y u ((.inl (.inl 0)))) (hl y u ((.inr 0)))
        (hl y u ((.inr 1))) (raw_line0 y u) (by simpa only [zero_mul, add_zero] using hp.1)
        (raw_line1 y u) (by simpa only [zero_mul, add_zero] using hp.2.1) (raw_line2 y u) (by
        simpa only [zero_mul, add_zero] using hp.2.2.1) (raw_line3 y u) (by simpa only [zero_mul,
        add_zero] using hp.2.2.2.1) (raw_line4 y u) (by simpa only [zero_mul, add_zero] using
        hp.2.2.2.2.1) (raw_line5 y u) (by simpa only [zero_mul, add_zero] using hp.2.2.2.2.2)
    try simp only [zero_mul, add_zero] at h
    refine h.congr_deriv ?_
    rw [sum_var]; simp only [Fin.sum_univ_one, Fin.sum_univ_two]; rfl

lemma gr_dgdr_0 (y : Var 1 2 → ℝ) (hy : Dom y) :
    Gr (fun y => (tables (raw y) y).dgdr 0) y ((tables (raw y) y).at2 (.inl (.inl 0))) := by
  refine Gr.of_lines ?_ fun u => ?_
  · have hp := pos y hy
    change DifferentiableAt ℝ (fun y => DGDR0 (y (.inl iT)) (y (.inl iP)) (y (.inl (.inl 0))) (y (.inr 0)) (y (.inr 1)) (raw y 0) (raw y 1) (raw y 2) (raw y 3) (raw y 4) (raw y 5)) y
    have d0 := raw_diff 0 y
    have q0 := hp.1
    have n0 := q0.ne'
    have d1 := raw_diff 1 y
    have q1 := hp.2.1
    have n1 := q1.ne'
    have d2 := raw_diff 2 y
    have q2 := hp.2.2.1
    have n2 := q2.ne'
    have d3 := raw_diff 3 y
    have q3 := hp.2.2.2.1
    have n3 := q3.ne'
    have d4 := raw_diff 4 y
    have q4 := hp.2.2.2.2.1
    have n4 := q4.ne'
    have d5 := raw_diff 5 y
    have q5 := hp.2.2.2.2.2
    have n5 := q5.ne'
    try simp only [GR, WV123, WG123, WV4, WG4, VX123_4, GX123_4, GRR, WV13, WG13, VX13_24, GX13_24, GRS13, WV2, WG2, VX134_2, GX134_2, GRS2, DGDR0, zero_mul, mul_zero, add_zero, zero_add, sub_zero]
    ddo
  · have hp := pos y hy
    have h := c_DGDR0 (hl y u ((.inl iT))) (hl y u ((.inl iP))) (hl y u ((.inl (.inl 0)))) (hl y u ((.inr 0)))
        (hl y u ((.inr 1))) (raw_line0 y u) (by simpa only [zero_mul, add_zero] using hp.1)
        (raw_line1 y u) (by simpa only [zero_mul, add_zero] using hp.2.1) (raw_line2 y u) (by
        simpa only [zero_mul, add_zero] using hp.2.2.1) (raw_line3 y u) (by simpa only [zero_mul,
        add_zero] using hp.2.2.2.1) (raw_line4 y u) (by simpa only [zero_mul, add_zero] using
        hp.2.2.2.2.1) (raw_line5 y u) (by simpa only [zero_mul, add_zero] using hp.2.2.2.2.2)
    try simp only [zero_mul, add_zero] at h
    refine h.congr_deriv ?_
    rw [sum_var]; simp only [Fin.sum_univ_one, Fin.sum_univ_two]; rfl

lemma gr_dgds_0 (y : Var 1 2 → ℝ) (hy : Dom y) :
    Gr (fun y => (tables (raw y) y).dgds 0) y ((tables (raw y) y).at2 (.inr 0)) := by
  refine Gr.of_lines ?_ fun u => ?_
  · have hp := pos y hy
    change DifferentiableAt ℝ (fun y => DGDS0 (y (.inl iT)) (y (.inl iP)) (y (.inl (.inl 0))) (y (.inr 0)) (y (.inr 1)) (raw y 0) (raw y 1) (raw y 2) (raw y 3) (raw y 4) (raw y 5)) y
    have d0 := raw_diff 0 y
    have q0 := hp.1
    have n0 := q0.ne'
    have d1 := raw_diff 1 y
    have q1 := hp.2.1
    have n1 := q1.ne'
    have d2 := raw_diff 2 y
    have q2 := hp.2.2.1
    have n2 := q2.ne'
    have d3 := raw_diff 3 y
    have q3 := hp.2.2.2.1
    have n3 := q3.ne'
    have d4 := raw_diff 4 y
    have q4 := hp.2.2.2.2.1
    have n4 := q4.ne'
    have d5 := raw_diff 5 y
    have q5 := hp.2.2.2.2.2
    have n5 := q5.ne'
    try simp only [VEX, GEX, VDEX, GDEX, GS13, WV123, WG123, WV13, WG13, WV4, WG4, VX123_4, GX123_4, VX13_24, GX13_24, GRS13, GS13S13, WV2, WG2, VX134_2, GX134_2, GS13S2, DGDS0, zero_mul, mul_zero, add_zero, zero_add, sub_zero]
    ddo
  · have hp := pos y hy
    have h := c_DGDS0 (hl y u ((.inl iT))) (hl y u ((.inl iP))) (hl y u ((.inl (.inl 0)))) (hl y u ((.inr 0)))
        (hl y u ((.inr 1))) (raw_line0 y u) (by simpa only [zero_mul, add_zero] using hp.1)
        (raw_line1 y u) (by simpa only [zero_mul, add_zero] using hp.2.1) (raw_line2 y u) (by
        simpa only [zero_mul, add_zero] using hp.2.2.1) (raw_line3 y u) (by simpa only [zero_mul,
        add_zero] using hp.2.2.2.1) (raw_line4 y u) (by simpa only [zero_mul, add_zero] using
        hp.2.2.2.2.1) (raw_line5 y u) (by simpa only [zero_mul, add_zero] using hp.2.2.2.2.2)
    try simp only [zero_mul, add_zero] at h
    refine h.congr_deriv ?_
    rw [sum_var]; simp only [Fin.sum_univ_one, Fin.sum_univ_two]; rfl

lemma gr_dgds_1 (y : Var 1 2 → ℝ) (hy : Dom y) :
    Gr (fun y => (tables (raw y) y).dgds 1) y ((tables (raw y) y).at2 (.inr 1)) := by
  refine Gr.of_lines ?_ fun u => ?_
  · have hp := pos y hy
    change DifferentiableAt ℝ (fun y => DGDS1 (y (.inl iT)) (y (.inl iP)) (y (.inl (.inl 0))) (y (.inr 0)) (y (.inr 1)) (raw y 0) (raw y 1) (raw y 2) (raw y 3) (raw y 4) (raw y 5)) y
    have d0 := raw_diff 0 y
    have q0 := hp.1
    have n0 := q0.ne'
    have d1 := raw_diff 1 y
    have q1 := hp.2.1
    have n1 := q1.ne'
    have d2 := raw_diff 2 y
    have q2 := hp.2.2.1
    have n2 := q2.ne'
    have d3 := raw_diff 3 y
    have q3 := hp.2.2.2.1
    have n3 := q3.ne'
    have d4 := raw_diff 4 y
    have q4 := hp.2.2.2.2.1
    have n4 := q4.ne'
    have d5 := raw_diff 5 y
    have q5 := hp.2.2.2.2.2
    have n5 := q5.ne'
    try simp only [VEX, GEX, VDEX, GDEX, GS2, WV123, WG123, WV2, WG2, WV4, WG4, VX123_4, GX123_4, VX134_2, GX134_2, GRS2, WV13, WG13, VX13_24, GX13_24, GS13S2, GS2S2, DGDS1, zero_mul, mul_zero, add_zero, zero_add, sub_zero]
    ddo
  · have hp := pos y hy
    have h := c_DGDS1 (hl y u ((.inl iT))) (hl y u ((.inl iP))) (hl y u ((.inl (.inl 0)))) (hl y u ((.inr 0)))
        (hl y u ((.inr 1))) (raw_line0 y u) (by simpa only [zero_mul, add_zero] using hp.1)
        (raw_line1 y u) (by simpa only [zero_mul, add_zero] using hp.2.1) (raw_line2 y u) (by
        simpa only [zero_mul, add_zero] using hp.2.2.1) (raw_line3 y u) (by simpa only [zero_mul,
        add_zero] using hp.2.2.2.1) (raw_line4 y u) (by simpa only [zero_mul, add_zero] using
        hp.2.2.2.2.1) (raw_line5 y u) (by simpa only [zero_mul, add_zero] using hp.2.2.2.2.2)
    try simp only [zero_mul, add_zero] at h
    refine h.congr_deriv ?_
    rw [sum_var]; simp only [Fin.sum_univ_one, Fin.sum_univ_two]; rfl

lemma gr_dgdt (y : Var 1 2 → ℝ) (hy : Dom y) :
    Gr (fun y => (tables (raw y) y).dgdt) y ((tables (raw y) y).at2 (.inl iT)) := by
  refine Gr.of_lines ?_ fun u => ?_
  · have hp := pos y hy
    change DifferentiableAt ℝ (fun y => DGDT (raw y 0) (raw y 1) (raw y 2) (raw y 3) (raw y 4) (raw y 5)) y
    have d0 := raw_diff 0 y
    have q0 := hp.1
    have n0 := q0.ne'
    have d1 := raw_diff 1 y
    have q1 := hp.2.1
    have n1 := q1.ne'
    have d2 := raw_diff 2 y
    have q2 := hp.2.2.1
    have n2 := q2.ne'
    have d3 := raw_diff 3 y
    have q3 := hp.2.2.2.1
    have n3 := q3.ne'
    have d4 := raw_diff 4 y
    have q4 := hp.2.2.2.2.1
    have n4 := q4.ne'
    have d5 := raw_diff 5 y
    have q5 := hp.2.2.2.2.2
    have n5 := q5.ne'
    try simp only [S, DGDT, zero_mul, mul_zero, add_zero, zero_add, sub_zero]
    ddo
  · have hp := pos y hy
    have h := c_DGDT (hl y u ((.inl iT))) (hl y u ((.inl iP))) (hl y u ((.inl (.inl 0)))) (hl y u ((.inr 0)))
        (hl y u ((.inr 1))) (raw_line0 y u) (by simpa only [zero_mul, add_zero] using hp.1)
        (raw_line1 y u) (by simpa only [zero_mul, add_zero] using hp.2.1) (raw_line2 y u) (by
        simpa only [zero_mul, add_zero] using hp.2.2.1) (raw_line3 y u) (by simpa only [zero_mul,
        add_zero] using hp.2.2.2.1) (raw_line4 y u) (by simpa only [zero_mul, add_zero] using
        hp.2.2.2.2.1) (raw_line5 y u) (by simpa only [zero_mul, add_zero] using hp.2.2.2.2.2)
    try simp only [zero_mul, add_zero] at h
    refine h.congr_deriv ?_
    rw [sum_var]; simp only [Fin.sum_univ_one, Fin.sum_univ_two]; rfl

lemma gr_dgdp (y : Var 1 2 → ℝ) (hy : Dom y) :
    Gr (fun y => (tables (raw y) y).dgdp) y ((tables (raw y) y).at2 (.inl iP)) := by
  refine Gr.of_lines ?_ fun u => ?_
  · have hp := pos y hy
    change DifferentiableAt ℝ (fun y => DGDP (y (.inl (.inl 0))) (y (.inr 0)) (y (.inr 1))) y
    try simp only [WV123, WV4, VX123_4, V0, VR, VEX, VDEX, VS13, VS2, VRR, WV13, VX13_24, VRS13, WV2, VX134_2, VRS2, VS13S13, VS13S2, VS2S2, V, DGDP, zero_mul, mul_zero, add_zero, zero_add, sub_zero]
    ddo
  · have hp := pos y hy
    have h := c_DGDP (hl y u ((.inl iT))) (hl y u ((.inl iP))) (hl y u ((.inl (.inl 0)))) (hl y u ((.inr 0)))
        (hl y u ((.inr 1)))
    try simp only [zero_mul, add_zero] at h
    refine h.congr_deriv ?_
    rw [sum_var]; simp only [Fin.sum_univ_one, Fin.sum_univ_two]; rfl

lemma gr_d2gdr2_0_0 (y : Var 1 2 → ℝ) (hy : Dom y) :
    Gr (fun y => (tables (raw y) y).d2gdr2 0 0) y ((tables (raw y) y).at3 (.inl (.inl 0)) (.inl (.inl 0))) := by
  refine Gr.of_lines ?_ fun u => ?_
  · have hp := pos y hy
    change DifferentiableAt ℝ (fun y => D2GDR0R0 (y (.inl iT)) (y (.inl iP)) (raw y 0) (raw y 1) (raw y 2) (raw y 3) (raw y 4) (raw y 5)) y
    have d0 := raw_diff 0 y
    have q0 := hp.1
    have n0 := q0.ne'
    have d1 := raw_diff 1 y
    have q1 := hp.2.1
    have n1 := q1.ne'
    have d2 := raw_diff 2 y
    have q2 := hp.2.2.1
    have n2 := q2.ne'
    have d3 := raw_diff 3 y
    have q3 := hp.2.2.2.1
    have n3 := q3.ne'
    have d4 := raw_diff 4 y
    have q4 := hp.2.2.2.2.1
    have n4 := q4.ne'
    have d5 := raw_diff 5 y
    have q5 := hp.2.2.2.2.2
    have n5 := q5.ne'
    try simp only [WV123, WG123, WV4, WG4, VX123_4, GX123_4, GRR, D2GDR0R0, zero_mul, mul_zero, add_zero, zero_add, sub_zero]
    ddo
  · have hp := pos y hy
    have h := c_D2GDR0R0 (hl y u ((.inl iT))) (hl y u ((.inl iP))) (hl y u ((.inl (.inl 0)))) (hl y u ((.inr 0)))
        (hl y u ((.inr 1))) (raw_line0 y u) (by simpa only [zero_mul, add_zero] using hp.1)
        (raw_line1 y u) (by simpa only [zero_mul, add_zero] using hp.2.1) (raw_line2 y u) (by
        simpa only [zero_mul, add_zero] using hp.2.2.1) (raw_line3 y u) (by simpa only [zero_mul,
        add_zero] using hp.2.2.2.1) (raw_line4 y u) (by simpa only [zero_mul, add_zero] using
        hp.2.2.2.2.1) (raw_line5 y u) (by simpa only [zero_mul, add_zero] using hp.2.2.2.2.2)
    try simp only [zero_mul, add_zero] at h
    refine h.congr_deriv ?_
    rw [sum_var]; simp only [Fin.sum_univ_one, Fin.sum_univ_two]; rfl

lemma gr_d2gdrds_0_0 (y : Var 1 2 → ℝ) (hy : Dom y) :
    Gr (fun y => (tables (raw y) y).d2gdrds 0 0) y ((tables (raw y) y).at3 (.inl (.inl 0)) (.inr 0)) := by
  refine Gr.of_lines ?_ fun u => ?_
  · have hp := pos y hy
    change DifferentiableAt ℝ (fun y => D2GDR0S0 (y (.inl iT)) (y (.inl iP)) (raw y 0) (raw y 1) (raw y 2) (raw y 3) (raw y 4) (raw y 5)) y
    have d0 := raw_diff 0 y
    have q0 := hp.1
    have n0 := q0.ne'
    have d1 := raw_diff 1 y
    have q1 := hp.2.1
    have n1 := q1.ne'
    have d2 := raw_diff 2 y
    have q2 := hp.2.2.1
    have n2 := q2.ne'
    have d3 := raw_diff 3 y
    have q3 := hp.2.2.2.1
    have n3 := q3.ne'
    have d4 := raw_diff 4 y
    have q4 := hp.2.2.2.2.1
    have n4 := q4.ne'
    have d5 := raw_diff 5 y
    have q5 := hp.2.2.2.2.2
    have n5 := q5.ne'
    try simp only [WV123, WG123, WV13, WG13, WV4, WG4, VX123_4, GX123_4, VX13_24, GX13_24, GRS13, D2GDR0S0, zero_mul, mul_zero, add_zero, zero_add, sub_zero]
    ddo
  · have hp := pos y hy
    have h := c_D2GDR0S0 (hl y u ((.inl iT))) (hl y u ((.inl iP))) (hl y u ((.inl (.inl 0)))) (hl y u ((.inr 0)))
        (hl y u ((.inr 1))) (raw_line0 y u) (by simpa only [zero_mul, add_zero] using hp.1)
        (raw_line1 y u) (by simpa only [zero_mul, add_zero] using hp.2.1) (raw_line2 y u) (by
        simpa only [zero_mul, add_zero] using hp.2.2.1) (raw_line3 y u) (by simpa only [zero_mul,
        add_zero] using hp.2.2.2.1) (raw_line4 y u) (by simpa only [zero_mul, add_zero] using
        hp.2.2.2.2.1) (raw_line5 y u) (by simpa only [zero_mul, add_zero] using hp.2.2.2.2.2)
    try simp only [zero_mul, add_zero] at h
    refine h.congr_deriv ?_
    rw [sum_var]; simp only [Fin.sum_univ_one, Fin.sum_univ_two]; rfl

lemma gr_d2gdrds_0_1 (y : Var 1 2 → ℝ) (hy : Dom y) :
    Gr (fun y => (tables (raw y) y).d2gdrds 0 1) y ((tables (raw y) y).at3 (.inl (.inl 0)) (.inr 1)) := by
  refine Gr.of_lines ?_ fun u => ?_
  · have hp := pos y hy
    change DifferentiableAt ℝ (fun y => D2GDR0S1 (y (.inl iT)) (y (.inl iP)) (raw y 0) (raw y 1) (raw y 2) (raw y 3) (raw y 4) (raw y 5)) y
    have d0 := raw_diff 0 y
    have q0 := hp.1
    have n0 := q0.ne'
    have d1 := raw_diff 1 y
    have q1 := hp.2.1
    have n1 := q1.ne'
    have d2 := raw_diff 2 y
    have q2 := hp.2.2.1
    have n2 := q2.ne'
    have d3 := raw_diff 3 y
    have q3 := hp.2.2.2.1
    have n3 := q3.ne'
    have d4 := raw_diff 4 y
    have q4 := hp.2.2.2.2.1
    have n4 := q4.ne'
    have d5 := raw_diff 5 y
    have q5 := hp.2.2.2.2.2
    have n5 := q5.ne'
    try simp only [WV123, WG123, WV2, WG2, WV4, WG4, VX123_4, GX123_4, VX134_2, GX134_2, GRS2, D2GDR0S1, zero_mul, mul_zero, add_zero, zero_add, sub_zero]
    ddo
  · have hp := pos y hy
    have h := c_D2GDR0S1 (hl y u ((.inl iT))) (hl y u ((.inl iP))) (hl y u ((.inl (.inl 0)))) (hl y u ((.inr 0)))
        (hl y u ((.inr 1))) (raw_line0 y u) (by simpa only [zero_mul, add_zero] using hp.1)
        (raw_line1 y u) (by simpa only [zero_mul, add_zero] using hp.2.1) (raw_line2 y u) (by
        simpa only [zero_mul, add_zero] using hp.2.2.1) (raw_line3 y u) (by simpa only [zero_mul,
        add_zero] using hp.2.2.2.1) (raw_line4 y u) (by simpa only [zero_mul, add_zero] using
        hp.2.2.2.2.1) (raw_line5 y u) (by simpa only [zero_mul, add_zero] using hp.2.2.2.2.2)
    try simp only [zero_mul, add_zero] at h
    refine h.congr_deriv ?_
    rw [sum_var]; simp only [Fin.sum_univ_one, Fin.sum_univ_two]; rfl

lemma gr_d2gdrdt_0 (y : Var 1 2 → ℝ) (hy : Dom y) :
    Gr (fun y => (tables (raw y) y).d2gdrdt 0) y ((tables (raw y) y).at3 (.inl (.inl 0)) (.inl iT)) := by
  refine Gr.of_lines ?_ fun u => ?_
  · have hp := pos y hy
    change DifferentiableAt ℝ (fun y => D2GDR0DT (raw y 0) (raw y 1) (raw y 2) (raw y 3) (raw y 4) (raw y 5)) y
    have d0 := raw_diff 0 y
    have q0 := hp.1
    have n0 := q0.ne'
    have d1 := raw_diff 1 y
    have q1 := hp.2.1
    have n1 := q1.ne'
    have d2 := raw_diff 2 y
    have q2 := hp.2.2.1
    have n2 := q2.ne'
    have d3 := raw_diff 3 y
    have q3 := hp.2.2.2.1
    have n3 := q3.ne'
    have d4 := raw_diff 4 y
    have q4 := hp.2.2.2.2.1
    have n4 := q4.ne'
    have d5 := raw_diff 5 y
    have q5 := hp.2.2.2.2.2
    have n5 := q5.ne'
    try simp only [D2GDR0DT, zero_mul, mul_zero, add_zero, zero_add, sub_zero]
    ddo
  · have hp := pos y hy
    have h := c_D2GDR0DT (hl y u ((.inl iT))) (hl y u ((.inl iP))) (hl y u ((.inl (.inl 0)))) (hl y u ((.inr 0)))
        (hl y u ((.inr 1))) (raw_line0 y u) (by simpa only [zero_mul, add_zero] using hp.1)
        (raw_line1 y u) (by simpa only [zero_mul, add_zero] using hp.2.1) (raw_line2 y u) (by
        simpa only [zero_mul, add_zero] using hp.2.2.1) (raw_line3 y u) (by simpa only [zero_mul,
        add_zero] using hp.2.2.2.1) (raw_line4 y u) (by simpa only [zero_mul, add_zero] using
        hp.2.2.2.2.1) (raw_line5 y u) (by simpa only [zero_mul, add_zero] using hp.2.2.2.2.2)
    try simp only [zero_mul, add_zero] at h
    refine h.congr_deriv ?_
    rw [sum_var]; simp only [Fin.sum_univ_one, Fin.sum_univ_two]; rfl

lemma gr_d2gdrdp_0 (y : Var 1 2 → ℝ) (hy : Dom y) :
    Gr (fun y => (tables (raw y) y).d2gdrdp 0) y ((tables (raw y) y).at3 (.inl (.inl 0)) (.inl iP)) := by
  refine Gr.of_lines ?_ fun u => ?_
  · have hp := pos y hy
    change DifferentiableAt ℝ (fun y => D2GDR0DP (y (.inl (.inl 0))) (y (.inr 0)) (y (.inr 1))) y
    try simp only [VR, WV123, WV4, VX123_4, VRR, WV13, VX13_24, VRS13, WV2, VX134_2, VRS2, D2GDR0DP, zero_mul, mul_zero, add_zero, zero_add, sub_zero]
    ddo
  · have hp := pos y hy
    have h := c_D2GDR0DP (hl y u ((.inl iT))) (hl y u ((.inl iP))) (hl y u ((.inl (.inl 0)))) (hl y u ((.inr 0)))
        (hl y u ((.inr 1)))
    try simp only [zero_mul, add_zero] at h
    refine h.congr_deriv ?_
    rw [sum_var]; simp only [Fin.sum_univ_one, Fin.sum_univ_two]; rfl

lemma gr_d2gds2_0_0 (y : Var 1 2 → ℝ) (hy : Dom y) :
    Gr (fun y => (tables (raw y) y).d2gds2 0 0) y ((tables (raw y) y).at3 (.inr 0) (.inr 0)) := by
  refine Gr.of_lines ?_ fun u => ?_
  · have hp := pos y hy
    change DifferentiableAt ℝ (fun y => D2GDS0S0 (y (.inl iT)) (y (.inl iP)) (raw y 0) (raw y 1) (raw y 2) (raw y 3) (raw y 4) (raw y 5)) y
    have d0 := raw_diff 0 y
    have q0 := hp.1
    have n0 := q0.ne'
    have d1 := raw_diff 1 y
    have q1 := hp.2.1
    have n1 := q1.ne'
    have d2 := raw_diff 2 y
    have q2 := hp.2.2.1
    have n2 := q2.ne'
    have d3 := raw_diff 3 y
    have q3 := hp.2.2.2.1
    have n3 := q3.ne'
    have d4 := raw_diff 4 y
    have q4 := hp.2.2.2.2.1
    have n4 := q4.ne'
    have d5 := raw_diff 5 y
    have q5 := hp.2.2.2.2.2
    have n5 := q5.ne'
    try simp only [WV123, WG123, WV13, WG13, WV4, WG4, VX123_4, GX123_4, VX13_24, GX13_24, GS13S13, D2GDS0S0, zero_mul, mul_zero, add_zero, zero_add, sub_zero]
    ddo
  · have hp := pos y hy
    have h := c_D2GDS0S0 (hl y u ((.inl iT))) (hl y u ((.inl iP))) (hl y u ((.inl (.inl 0)))) (hl y u ((.inr 0)))
        (hl y u ((.inr 1))) (raw_line0 y u) (by simpa only [zero_mul, add_zero] using hp.1)
        (raw_line1 y u) (by simpa only [zero_mul, add_zero] using hp.2.1) (raw_line2 y u) (by
        simpa only [zero_mul, add_zero] using hp.2.2.1) (raw_line3 y u) (by simpa only [zero_mul,
        add_zero] using hp.2.2.2.1) (raw_line4 y u) (by simpa only [zero_mul, add_zero] using
        hp.2.2.2.2.1) (raw_line5 y u) (by simpa only [zero_mul, add_zero] using hp.2.2.2.2.2)
    try simp only [zero_mul, add_zero] at h
    refine h.congr_deriv ?_
    rw [sum_var]; simp only [Fin.sum_univ_one, Fin.sum_univ_two]; rfl

lemma gr_d2gds2_0_1 (y : Var 1 2 → ℝ) (hy : Dom y) :
    Gr (fun y => (tables (raw y) y).d2gds2 0 1) y ((tables (raw y) y).at3 (.inr 0) (.inr 1)) := by
  refine Gr.of_lines ?_ fun u => ?_
  · have hp := pos y hy
    change DifferentiableAt ℝ (fun y => D2GDS0S1 (y (.inl iT)) (y (.inl iP)) (raw y 0) (raw y 1) (raw y 2) (raw y 3) (raw y 4) (raw y 5)) y
    have d0 := raw_diff 0 y
    have q0 := hp.1
    have n0 := q0.ne'
    have d1 := raw_diff 1 y
    have q1 := hp.2.1
    have n1 := q1.ne'
    have d2 := raw_diff 2 y
    have q2 := hp.2.2.1
    have n2 := q2.ne'
    have d3 := raw_diff 3 y
    have q3 := hp.2.2.2.1
    have n3 := q3.ne'
    have d4 := raw_diff 4 y
    have q4 := hp.2.2.2.2.1
    have n4 := q4.ne'
    have d5 := raw_diff 5 y
    have q5 := hp.2.2.2.2.2
    have n5 := q5.ne'
    try simp only [WV123, WG123, WV13, WG13, WV2, WG2, WV4, WG4, VX123_4, GX123_4, VX13_24, GX13_24, VX134_2, GX134_2, GS13S2, D2GDS0S1, zero_mul, mul_zero, add_zero, zero_add, sub_zero]
    ddo
  · have hp := pos y hy
    have h := c_D2GDS0S1 (hl y u ((.inl iT))) (hl y u ((.inl iP))) (hl y u ((.inl (.inl 0)))) (hl y u ((.inr 0)))
        (hl y u ((.inr 1))) (raw_line0 y u) (by simpa only [zero_mul, add_zero] using hp.1)
        (raw_line1 y u) (by simpa only [zero_mul, add_zero] using hp.2.1) (raw_line2 y u) (by
        simpa only [zero_mul, add_zero] using hp.2.2.1) (raw_line3 y u) (by simpa only [zero_mul,
        add_zero] using hp.2.2.2.1) (raw_line4 y u) (by simpa only [zero_mul, add_zero] using
        hp.2.2.2.2.1) (raw_line5 y u) (by simpa only [zero_mul, add_zero] using hp.2.2.2.2.2)
    try simp only [zero_mul, add_zero] at h
    refine h.congr_deriv ?_
    rw [sum_var]; simp only [Fin.sum_univ_one, Fin.sum_univ_two]; rfl

lemma gr_d2gdsdt_0 (y : Var 1 2 → ℝ) (hy : Dom y) :
    Gr (fun y => (tables (raw y) y).d2gdsdt 0) y ((tables (raw y) y).at3 (.inr 0) (.inl iT)) := by
  refine Gr.of_lines ?_ fun u => ?_
  · have hp := pos y hy
    change DifferentiableAt ℝ (fun y => D2GDS0DT (raw y 0) (raw y 1) (raw y 2) (raw y 3) (raw y 4) (raw y 5)) y
    have d0 := raw_diff 0 y
    have q0 := hp.1
    have n0 := q0.ne'
    have d1 := raw_diff 1 y
    have q1 := hp.2.1
    have n1 := q1.ne'
    have d2 := raw_diff 2 y
    have q2 := hp.2.2.1
    have n2 := q2.ne'
    have d3 := raw_diff 3 y
    have q3 := hp.2.2.2.1
    have n3 := q3.ne'
    have d4 := raw_diff 4 y
    have q4 := hp.2.2.2.2.1
    have n4 := q4.ne'
    have d5 := raw_diff 5 y
    have q5 := hp.2.2.2.2.2
    have n5 := q5.ne'
    try simp only [D2GDS0DT, zero_mul, mul_zero, add_zero, zero_add, sub_zero]
    ddo
  · have hp := pos y hy
    have h := c_D2GDS0DT (hl y u ((.inl iT))) (hl y u ((.inl iP))) (hl y u ((.inl (.inl 0)))) (hl y u ((.inr 0)))
        (hl y u ((.inr 1))) (raw_line0 y u) (by simpa only [zero_mul, add_zero] using hp.1)
        (raw_line1 y u) (by simpa only [zero_mul, add_zero] using hp.2.1) (raw_line2 y u) (by
        simpa only [zero_mul, add_zero] using hp.2.2.1) (raw_line3 y u) (by simpa only [zero_mul,
        add_zero] using hp.2.2.2.1) (raw_line4 y u) (by simpa only [zero_mul, add_zero] using
        hp.2.2.2.2.1) (raw_line5 y u) (by simpa only [zero_mul, add_zero] using hp.2.2.2.2.2)
    try simp only [zero_mul, add_zero] at h
    refine h.congr_deriv ?_
    rw [sum_var]; simp only [Fin.sum_univ_one, Fin.sum_univ_two]; rfl

lemma gr_d2gdsdp_0 (y : Var 1 2 → ℝ) (hy : Dom y) :
    Gr (fun y => (tables (raw y) y).d2gdsdp 0) y ((tables (raw y) y).at3 (.inr 0) (.inl iP)) := by
  refine Gr.of_lines ?_ fun u => ?_
  · have hp := pos y hy
    change DifferentiableAt ℝ (fun y => D2GDS0DP (y (.inl (.inl 0))) (y (.inr 0)) (y (.inr 1))) y
    try simp only [VEX, VDEX, VS13, WV123, WV13, WV4, VX123_4, VX13_24, VRS13, VS13S13, WV2, VX134_2, VS13S2, D2GDS0DP, zero_mul, mul_zero, add_zero, zero_add, sub_zero]
    ddo
  · have hp := pos y hy
    have h := c_D2GDS0DP (hl y u ((.inl iT))) (hl y u ((.inl iP))) (hl y u ((.inl (.inl 0)))) (hl y u ((.inr 0)))
        (hl y u ((.inr 1)))
    try simp only [zero_mul, add_zero] at h
    refine h.congr_deriv ?_
    rw [sum_var]; simp only [Fin.sum_univ_one, Fin.sum_univ_two]; rfl

lemma gr_d2gds2_1_1 (y : Var 1 2 → ℝ) (hy : Dom y) :
    Gr (fun y => (tables (raw y) y).d2gds2 1 1) y ((tables (raw y) y).at3 (.inr 1) (.inr 1)) := by
  refine Gr.of_lines ?_ fun u => ?_
  · have hp := pos y hy
    change DifferentiableAt ℝ (fun y => D2GDS1S1 (y (.inl iT)) (y (.inl iP)) (raw y 0) (raw y 1) (raw y 2) (raw y 3) (raw y 4) (raw y 5)) y
    have d0 := raw_diff 0 y
    have q0 := hp.1
    have n0 := q0.ne'
    have d1 := raw_diff 1 y
    have q1 := hp.2.1
    have n1 := q1.ne'
    have d2 := raw_diff 2 y
    have q2 := hp.2.2.1
    have n2 := q2.ne'
    have d3 := raw_diff 3 y
    have q3 := hp.2.2.2.1
    have n3 := q3.ne'
    have d4 := raw_diff 4 y
    have q4 := hp.2.2.2.2.1
    have n4 := q4.ne'
    have d5 := raw_diff 5 y
    have q5 := hp.2.2.2.2.2
    have n5 := q5.ne'
    try simp only [WV123, WG123, WV2, WG2, WV4, WG4, VX123_4, GX123_4, VX134_2, GX134_2, GS2S2, D2GDS1S1, zero_mul, mul_zero, add_zero, zero_add, sub_zero]
    ddo
  · have hp := pos y hy
    have h := c_D2GDS1S1 (hl y u ((.inl iT))) (hl y u ((.inl iP))) (hl y u ((.inl (.inl 0)))) (hl y u ((.inr 0)))
        (hl y u ((.inr 1))) (raw_line0 y u) (by simpa only [zero_mul, add_zero] using hp.1)
        (raw_line1 y u) (by simpa only [zero_mul, add_zero] using hp.2.1) (raw_line2 y u) (by
        simpa only [zero_mul, add_zero] using hp.2.2.1) (raw_line3 y u) (by simpa only [zero_mul,
        add_zero] using hp.2.2.2.1) (raw_line4 y u) (by simpa only [zero_mul, add_zero] using
        hp.2.2.2.2.1) (raw_line5 y u) (by simpa only [zero_mul, add_zero] using hp.2.2.2.2.2)
    try simp only [zero_mul, add_zero] at h
    refine h.congr_deriv ?_
    rw [sum_var]; simp only [Fin.sum_univ_one, Fin.sum_univ_two]; rfl

lemma gr_d2gdsdt_1 (y : Var 1 2 → ℝ) (hy : Dom y) :
    Gr (fun y => (tables (raw y) y).d2gdsdt 1) y ((tables (raw y) y).at3 (.inr 1) (.inl iT)) := by
  refine Gr.of_lines ?_ fun u => ?_
  · have hp := pos y hy
    change DifferentiableAt ℝ (fun y => D2GDS1DT (raw y 0) (raw y 1) (raw y 2) (raw y 3) (raw y 4) (raw y 5)) y
    have d0 := raw_diff 0 y
    have q0 := hp.1
    have n0 := q0.ne'
    have d1 := raw_diff 1 y
    have q1 := hp.2.1
    have n1 := q1.ne'
    have d2 := raw_diff 2 y
    have q2 := hp.2.2.1
    have n2 := q2.ne'
    have d3 := raw_diff 3 y
    have q3 := hp.2.2.2.1
    have n3 := q3.ne'
    have d4 := raw_diff 4 y
    have q4 := hp.2.2.2.2.1
    have n4 := q4.ne'
    have d5 := raw_diff 5 y
    have q5 := hp.2.2.2.2.2
    have n5 := q5.ne'
    try simp only [D2GDS1DT, zero_mul, mul_zero, add_zero, zero_add, sub_zero]
    ddo
  · have hp := pos y hy
    have h := c_D2GDS1DT (hl y u ((.inl iT))) (hl y u ((.inl iP))) (hl y u ((.inl (.inl 0)))) (hl y u ((.inr 0)))
        (hl y u ((.inr 1))) (raw_line0 y u) (by simpa only [zero_mul, add_zero] using hp.1)
        (raw_line1 y u) (by simpa only [zero_mul, add_zero] using hp.2.1) (raw_line2 y u) (by
        simpa only [zero_mul, add_zero] using hp.2.2.1) (raw_line3 y u) (by simpa only [zero_mul,
        add_zero] using hp.2.2.2.1) (raw_line4 y u) (by simpa only [zero_mul, add_zero] using
        hp.2.2.2.2.1) (raw_line5 y u) (by simpa only [zero_mul, add_zero] using hp.2.2.2.2.2)
    try simp only [zero_mul, add_zero] at h
    refine h.congr_deriv ?_
    rw [sum_var]; simp only [Fin.sum_univ_one, Fin.sum_univ_two]; rfl

lemma gr_d2gdsdp_1 (y : Var 1 2 → ℝ) (hy : Dom y) :
    Gr (fun y => (tables (raw y) y).d2gdsdp 1) y ((tables (raw y) y).at3 (.inr 1) (.inl iP)) := by
  refine Gr.of_lines ?_ fun u => ?_
  · have hp := pos y hy
    change DifferentiableAt ℝ (fun y => D2GDS1DP (y (.inl (.inl 0))) (y (.inr 0)) (y (.inr 1))) y
    try simp only [VEX, VDEX, VS2, WV123, WV2, WV4, VX123_4, VX134_2, VRS2, WV13, VX13_24, VS13S2, VS2S2, D2GDS1DP, zero_mul, mul_zero, add_zero, zero_add, sub_zero]
    ddo
  · have hp := pos y hy
    have h := c_D2GDS1DP (hl y u ((.inl iT))) (hl y u ((.inl iP))) (hl y u ((.inl (.inl 0)))) (hl y u ((.inr 0)))
        (hl y u ((.inr 1)))
    try simp only [zero_mul, add_zero] at h
    refine h.congr_deriv ?_
    rw [sum_var]; simp only [Fin.sum_univ_one, Fin.sum_univ_two]; rfl

lemma gr_d2gdt2 (y : Var 1 2 → ℝ) (hy : Dom y) :
    Gr (fun y => (tables (raw y) y).d2gdt2) y ((tables (raw y) y).at3 (.inl iT) (.inl iT)) := by
  refine Gr.of_lines ?_ fun u => ?_
  · have hp := pos y hy
    change DifferentiableAt ℝ (fun y => D2GDT2) y
    try simp only [D2GDT2, zero_mul, mul_zero, add_zero, zero_add, sub_zero]
    ddo
  · have hp := pos y hy
    have h := c_D2GDT2 (hl y u ((.inl iT))) (hl y u ((.inl iP))) (hl y u ((.inl (.inl 0)))) (hl y u ((.inr 0)))
        (hl y u ((.inr 1)))
    try simp only [zero_mul, add_zero] at h
    refine h.congr_deriv ?_
    rw [sum_var]; simp only [Fin.sum_univ_one, Fin.sum_univ_two]; rfl

lemma gr_d2gdtdp (y : Var 1 2 → ℝ) (hy : Dom y) :
    Gr (fun y => (tables (raw y) y).d2gdtdp) y ((tables (raw y) y).at3 (.inl iT) (.inl iP)) := by
  refine Gr.of_lines ?_ fun u => ?_
  · have hp := pos y hy
    change DifferentiableAt ℝ (fun y => D2GDTDP) y
    try simp only [D2GDTDP, zero_mul, mul_zero, add_zero, zero_add, sub_zero]
    ddo
  · have hp := pos y hy
    have h := c_D2GDTDP (hl y u ((.inl iT))) (hl y u ((.inl iP))) (hl y u ((.inl (.inl 0)))) (hl y u ((.inr 0)))
        (hl y u ((.inr 1)))
    try simp only [zero_mul, add_zero] at h
    refine h.congr_deriv ?_
    rw [sum_var]; simp only [Fin.sum_univ_one, Fin.sum_univ_two]; rfl

lemma gr_d2gdp2 (y : Var 1 2 → ℝ) (hy : Dom y) :
    Gr (fun y => (tables (raw y) y).d2gdp2) y ((tables (raw y) y).at3 (.inl iP) (.inl iP)) := by
  refine Gr.of_lines ?_ fun u => ?_
  · have hp := pos y hy
    change DifferentiableAt ℝ (fun y => D2GDP2) y
    try simp only [D2GDP2, zero_mul, mul_zero, add_zero, zero_add, sub_zero]
    ddo
  · have hp := pos y hy
    have h := c_D2GDP2 (hl y u ((.inl iT))) (hl y u ((.inl iP))) (hl y u ((.inl (.inl 0)))) (hl y u ((.inr 0)))
        (hl y u ((.inr 1)))
    try simp only [zero_mul, add_zero] at h
    refine h.congr_deriv ?_
    rw [sum_var]; simp only [Fin.sum_univ_one, Fin.sum_univ_two]; rfl

lemma symm (x : Fin 6 → ℝ) (y : Var 1 2 → ℝ) : (tables x y).Symm := by
  constructor
  · intro i j; fin_cases i <;> fin_cases j <;> rfl
  · intro i j; fin_cases i <;> fin_cases j <;> rfl
  · intro i j k; fin_cases i <;> fin_cases j <;> fin_cases k <;> exact ⟨rfl, rfl⟩
  · intro i j k; fin_cases i <;> fin_cases j <;> fin_cases k <;> rfl
  · intro i j; fin_cases i <;> fin_cases j <;> rfl
  · intro i j; fin_cases i <;> fin_cases j <;> rfl
  · intro i j k; fin_cases i <;> fin_cases j <;> fin_cases k <;> rfl
  · intro i j k; fin_cases i <;> fin_cases j <;> fin_cases k <;> exact ⟨rfl, rfl⟩
  · intro i j; fin_cases i <;> fin_cases j <;> rfl
  · intro i j; fin_cases i <;> fin_cases j <;> rfl

lemma ok_raw : (jets fun y => tables (raw y) y).Ok Dom := by
  refine jets_ok (fun y _ => symm (raw y) y) gr_g ?_ gr_dgdt gr_dgdp ?_ ?_ ?_ ?_ ?_ ?_ ?_ ?_ gr_d2gdt2 gr_d2gdtdp gr_d2gdp2
  · intro y hy i
    fin_cases i
    · exact gr_dgdr_0 y hy
  · intro y hy i
    fin_cases i
    · exact gr_dgds_0 y hy
    · exact gr_dgds_1 y hy
  · intro y hy i j
    fin_cases i <;> fin_cases j
    · exact gr_d2gdr2_0_0 y hy
  · intro y hy i j
    fin_cases i <;> fin_cases j
    · exact gr_d2gdrds_0_0 y hy
    · exact gr_d2gdrds_0_1 y hy
  · intro y hy i
    fin_cases i
    · exact gr_d2gdrdt_0 y hy
  · intro y hy i
    fin_cases i
    · exact gr_d2gdrdp_0 y hy
  · intro y hy i j
    fin_cases i <;> fin_cases j
    · exact gr_d2gds2_0_0 y hy
    · exact gr_d2gds2_0_1 y hy
    · exact (gr_d2gds2_0_1 y hy).congr_d (funext fun k => ((symm (raw y) y).at3 _ _ k).1)
    · exact gr_d2gds2_1_1 y hy
  · intro y hy i
    fin_cases i
    · exact gr_d2gdsdt_0 y hy
    · exact gr_d2gdsdt_1 y hy
  · intro y hy i
    fin_cases i
    · exact gr_d2gdsdp_0 y hy
    · exact gr_d2gdsdp_1 y hy

lemma site_eq (y : Var 1 2 → ℝ) (hy : Dom y) : site y = raw y := by
  obtain ⟨h0, h1, h2, h3, h4, h5⟩ := hy
  funext k; fin_cases k
  · exact keep_eq h0.1 h0.2
  · exact keep_eq h1.1 h1.2
  · exact keep_eq h2.1 h2.2
  · exact keep_eq h3.1 h3.2
  · exact keep_eq h4.1 h4.2
  · exact keep_eq h5.1 h5.2

lemma dom_open : IsOpen {y | Dom y} := by
  have hc : ∀ k, Continuous fun y => raw y k := fun k =>
    continuous_iff_continuousAt.2 fun y => (raw_diff k y).continuousAt
  exact ((isOpen_lt continuous_const (hc 0)).inter (isOpen_lt (hc 0) continuous_const)).inter (((isOpen_lt
    continuous_const (hc 1)).inter (isOpen_lt (hc 1) continuous_const)).inter (((isOpen_lt continuous_const (hc
    2)).inter (isOpen_lt (hc 2) continuous_const)).inter (((isOpen_lt continuous_const (hc 3)).inter (isOpen_lt
    (hc 3) continuous_const)).inter (((isOpen_lt continuous_const (hc 4)).inter (isOpen_lt (hc 4)
    continuous_const)).inter ((isOpen_lt continuous_const (hc 5)).inter (isOpen_lt (hc 5) continuous_const))))))

/-- The arrays of cummingtonite.c are the derivatives of its Gibbs energy to third order. -/
theorem ok : (jets macros).Ok Dom :=
  ok_congr dom_open (fun y hy => by unfold macros; rw [site_eq y hy]) ok_raw

lemma entropy_eq (y : Var 1 2 → ℝ) : (jets macros).g1 y (.inl iT) = -(macros y).s := by
  change DGDT (site y 0) (site y 1) (site y 2) (site y 3) (site y 4) (site y 5) = -(S (site y 0) (site y 1) (site y 2) (site y 3) (site y 4) (site y 5))
  simp only [DGDT]

end Cummingtonite

end

end Verif.Thermo.Ordering
