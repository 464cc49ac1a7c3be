import Verif.Thermo.OrderLogs

/-!
Spinel. Generated by /verif/tools/gen/genord.py from the macros of /repo/sources/spinel.c: one definition per macro, with the
macros it mentions as definitions (the generator checks that this has the value of C's textual substitution).
-/

namespace Verif.Thermo.Ordering

open Magma.Thermo.Mixing (R)

noncomputable section

set_option linter.unusedVariables false
set_option linter.unnecessarySeqFocus false
set_option linter.unusedSimpArgs false
set_option linter.unusedTactic false
set_option linter.unreachableTactic false

namespace Spinel

/-- `S55`, spinel.c 206. -/
def S55 : ℝ :=
  0

/-- `ss4`, spinel.c 311. -/
def ss4 : ℝ :=
  S55

/-- `S`, spinel.c 1575-1579. -/
def S (s2 xmg2tet xfe2tet xal3tet xfe3tet xmg2oct xfe2oct xal3oct xfe3oct xcr3oct xti4oct : ℝ) : ℝ :=
  (-R) * (xmg2tet * Real.log xmg2tet + xfe2tet * Real.log xfe2tet + xal3tet * Real.log xal3tet + xfe3tet *
    Real.log xfe3tet + 2 * xmg2oct * Real.log xmg2oct + 2 * xfe2oct * Real.log xfe2oct + 2 * xal3oct * Real.log
    xal3oct + 2 * xfe3oct * Real.log xfe3oct + 2 * xcr3oct * Real.log xcr3oct + 2 * xti4oct * Real.log xti4oct)
    + ss4 * s2

/-- `g0`, spinel.c 301. -/
def g0 : ℝ :=
  0

/-- `gx2`, spinel.c 302. -/
def gx2 : ℝ :=
  0

/-- `gx3`, spinel.c 303. -/
def gx3 : ℝ :=
  0

/-- `gx4`, spinel.c 304. -/
def gx4 : ℝ :=
  0

/-- `gx5`, spinel.c 305. -/
def gx5 : ℝ :=
  0

/-- `WOCT`, spinel.c 210. -/
def WOCT : ℝ :=
  2 * 1000 * (523 / 125)

/-- `W24U`, spinel.c 197. -/
def W24U : ℝ :=
  (63 / 5) * 1000 * (523 / 125)

/-- `W14`, spinel.c 189. -/
def W14 : ℝ :=
  (104 / 5) * 1000 * (523 / 125)

/-- `HX`, spinel.c 209. -/
def HX : ℝ :=
  (12 / 5) * 1000 * (523 / 125)

/-- `HEX`, spinel.c 208. -/
def HEX : ℝ :=
  (-(18 / 5)) * 1000 * (523 / 125)

/-- `H24`, spinel.c 196. -/
def H24 : ℝ :=
  (131 / 20) * 1000 * (523 / 125)

/-- `gs1`, spinel.c 306-307. -/
def gs1 : ℝ :=
  (1 / 2) * (-WOCT + W24U - W14 + (1 / 2) * HX + (1 / 2) * HEX + H24)

/-- `W11`, spinel.c 188. -/
def W11 : ℝ :=
  (9 / 2) * 1000 * (523 / 125)

/-- `H11`, spinel.c 187. -/
def H11 : ℝ :=
  (-(87 / 10)) * 1000 * (523 / 125)

/-- `gs2`, spinel.c 308. -/
def gs2 : ℝ :=
  W11 + H11

/-- `W13P`, spinel.c 217. -/
def W13P : ℝ :=
  (113 / 10) * 1000 * (523 / 125)

/-- `W13`, spinel.c 215. -/
def W13 : ℝ :=
  10 * 1000 * (523 / 125)

/-- `H33`, spinel.c 212. -/
def H33 : ℝ :=
  (-20) * 1000 * (523 / 125)

/-- `gs3`, spinel.c 309. -/
def gs3 : ℝ :=
  W13P - W13 + H33

/-- `W15P`, spinel.c 193. -/
def W15P : ℝ :=
  (117 / 10) * 1000 * (523 / 125)

/-- `W15`, spinel.c 191. -/
def W15 : ℝ :=
  10 * 1000 * (523 / 125)

/-- `H55`, spinel.c 205. -/
def H55 : ℝ :=
  (25 / 4) * 1000 * (523 / 125)

/-- `hs4`, spinel.c 310. -/
def hs4 : ℝ :=
  W15P - W15 + H55

/-- `WTET`, spinel.c 211. -/
def WTET : ℝ :=
  2 * 1000 * (523 / 125)

/-- `gx2x2`, spinel.c 312. -/
def gx2x2 : ℝ :=
  (-(1 / 4)) * (WTET + WOCT + HX)

/-- `W2P3U`, spinel.c 219. -/
def W2P3U : ℝ :=
  10 * 1000 * (523 / 125)

/-- `W22`, spinel.c 195. -/
def W22 : ℝ :=
  (18 / 5) * 1000 * (523 / 125)

/-- `W1P3`, spinel.c 216. -/
def W1P3 : ℝ :=
  (76 / 5) * 1000 * (523 / 125)

/-- `H23`, spinel.c 213. -/
def H23 : ℝ :=
  0 * 1000 * (523 / 125)

/-- `gx2x3`, spinel.c 313. -/
def gx2x3 : ℝ :=
  (1 / 2) * (W2P3U - W22 - W1P3 + W11 + 2 * H23)

/-- `gx2x4`, spinel.c 314-315. -/
def gx2x4 : ℝ :=
  (1 / 2) * (WTET - W24U + W14 + (1 / 2) * HX - (1 / 2) * HEX + H24)

/-- `W2P5U`, spinel.c 201. -/
def W2P5U : ℝ :=
  (72 / 5) * 1000 * (523 / 125)

/-- `W1P5`, spinel.c 192. -/
def W1P5 : ℝ :=
  (72 / 5) * 1000 * (523 / 125)

/-- `H25`, spinel.c 199. -/
def H25 : ℝ :=
  (161 / 20) * 1000 * (523 / 125)

/-- `gx2x5`, spinel.c 316. -/
def gx2x5 : ℝ :=
  (1 / 2) * (-W22 + W11 + W2P5U - W1P5 + 2 * H25)

/-- `gx2s1`, spinel.c 317. -/
def gx2s1 : ℝ :=
  (1 / 2) * (WOCT - WTET)

/-- `W2P4U`, spinel.c 198. -/
def W2P4U : ℝ :=
  (109 / 10) * 1000 * (523 / 125)

/-- `W1P4`, spinel.c 190. -/
def W1P4 : ℝ :=
  (62 / 5) * 1000 * (523 / 125)

/-- `gx2s2`, spinel.c 318-319. -/
def gx2s2 : ℝ :=
  (1 / 2) * (WTET - W22 + W11 - WOCT + 2 * W2P4U - 2 * W1P4 - HEX + 2 * H24)

/-- `W3PU4U`, spinel.c 223. -/
def W3PU4U : ℝ :=
  (52 / 5) * 1000 * (523 / 125)

/-- `W3P4`, spinel.c 222. -/
def W3P4 : ℝ :=
  10 * 1000 * (523 / 125)

/-- `W23PU`, spinel.c 220. -/
def W23PU : ℝ :=
  (97 / 10) * 1000 * (523 / 125)

/-- `gx2s3`, spinel.c 320-322. -/
def gx2s3 : ℝ :=
  (1 / 2) * (WTET - WOCT + 2 * W3PU4U - 2 * W3P4 - W2P3U - W23PU + W22 + W1P3 + W13P - W11 - HEX + 2 * H24 - 2
    * H23)

/-- `W4U5PU`, spinel.c 204. -/
def W4U5PU : ℝ :=
  (9 / 5) * 1000 * (523 / 125)

/-- `W45P`, spinel.c 203. -/
def W45P : ℝ :=
  2 * 1000 * (523 / 125)

/-- `W25PU`, spinel.c 200. -/
def W25PU : ℝ :=
  (153 / 10) * 1000 * (523 / 125)

/-- `gx2s4`, spinel.c 323-325. -/
def gx2s4 : ℝ :=
  (1 / 2) * (WTET - WOCT - W11 + W22 + 2 * W4U5PU - 2 * W45P - W2P5U - W25PU + W1P5 + W15P - HEX - 2 * H25 + 2
    * H24)

/-- `gx3x3`, spinel.c 326. -/
def gx3x3 : ℝ :=
  -W13

/-- `W34`, spinel.c 221. -/
def W34 : ℝ :=
  (25 / 2) * 1000 * (523 / 125)

/-- `gx3x4`, spinel.c 327. -/
def gx3x4 : ℝ :=
  W34 - W14 - W13

/-- `W35`, spinel.c 224. -/
def W35 : ℝ :=
  0 * 1000 * (523 / 125)

/-- `gx3x5`, spinel.c 328. -/
def gx3x5 : ℝ :=
  W35 - W15 - W13

/-- `gx3s1`, spinel.c 329. -/
def gx3s1 : ℝ :=
  (1 / 2) * (W2P3U - W22 - W1P3 + W11)

/-- `gx3s2`, spinel.c 330. -/
def gx3s2 : ℝ :=
  W1P3 - W13 - W11

/-- `W33`, spinel.c 214. -/
def W33 : ℝ :=
  7 * 1000 * (523 / 125)

/-- `gx3s3`, spinel.c 331. -/
def gx3s3 : ℝ :=
  W33 - W13P + W13

/-- `W35P`, spinel.c 226. -/
def W35P : ℝ :=
  8 * 1000 * (523 / 125)

/-- `gx3s4`, spinel.c 332. -/
def gx3s4 : ℝ :=
  W35P - W35 - W15P + W15

/-- `gx4x4`, spinel.c 333. -/
def gx4x4 : ℝ :=
  -W14

/-- `W45`, spinel.c 202. -/
def W45 : ℝ :=
  6 * 1000 * (523 / 125)

/-- `gx4x5`, spinel.c 334. -/
def gx4x5 : ℝ :=
  W45 - W15 - W14

/-- `gx4s1`, spinel.c 335-336. -/
def gx4s1 : ℝ :=
  (1 / 2) * (WTET - W24U + W14 - (1 / 2) * HX + (1 / 2) * HEX - H24)

/-- `gx4s2`, spinel.c 337. -/
def gx4s2 : ℝ :=
  -W11 + W1P4 - W14

/-- `gx4s3`, spinel.c 338. -/
def gx4s3 : ℝ :=
  W3P4 - W34 - W13P + W13

/-- `gx4s4`, spinel.c 339. -/
def gx4s4 : ℝ :=
  W45P - W45 - W15P + W15

/-- `gx5x5`, spinel.c 340. -/
def gx5x5 : ℝ :=
  -W15

/-- `gx5s1`, spinel.c 341. -/
def gx5s1 : ℝ :=
  (1 / 2) * (-W22 + W11 + W2P5U - W1P5)

/-- `gx5s2`, spinel.c 342. -/
def gx5s2 : ℝ :=
  -W11 + W1P5 - W15

/-- `W3P5`, spinel.c 225. -/
def W3P5 : ℝ :=
  10 * 1000 * (523 / 125)

/-- `gx5s3`, spinel.c 343. -/
def gx5s3 : ℝ :=
  W3P5 - W35 - W13P + W13

/-- `W55`, spinel.c 207. -/
def W55 : ℝ :=
  0 * 1000 * (523 / 125)

/-- `gx5s4`, spinel.c 344. -/
def gx5s4 : ℝ :=
  W55 - W15P + W15

/-- `gs1s1`, spinel.c 345. -/
def gs1s1 : ℝ :=
  (1 / 4) * (-WTET - WOCT + HX)

/-- `gs1s2`, spinel.c 346. -/
def gs1s2 : ℝ :=
  (1 / 2) * (WTET - W22 + W11 + WOCT - HX)

/-- `gs1s3`, spinel.c 347-348. -/
def gs1s3 : ℝ :=
  (1 / 2) * (WTET + WOCT - W2P3U - W23PU + W22 + W1P3 + W13P - W11 - HX)

/-- `gs1s4`, spinel.c 349-350. -/
def gs1s4 : ℝ :=
  (1 / 2) * (WTET + WOCT + W22 - W11 - W2P5U - W25PU + W1P5 + W15P - HX)

/-- `gs2s2`, spinel.c 351. -/
def gs2s2 : ℝ :=
  -W11

/-- `W1P3P`, spinel.c 218. -/
def W1P3P : ℝ :=
  (59 / 10) * 1000 * (523 / 125)

/-- `gs2s3`, spinel.c 352. -/
def gs2s3 : ℝ :=
  W1P3P - W1P3 - W13P + W13

/-- `W1P5P`, spinel.c 194. -/
def W1P5P : ℝ :=
  7 * 1000 * (523 / 125)

/-- `gs2s4`, spinel.c 353. -/
def gs2s4 : ℝ :=
  W1P5P - W1P5 - W15P + W15

/-- `gs3s3`, spinel.c 354. -/
def gs3s3 : ℝ :=
  -W33

/-- `W3P5P`, spinel.c 227. -/
def W3P5P : ℝ :=
  0 * 1000 * (523 / 125)

/-- `gs3s4`, spinel.c 355. -/
def gs3s4 : ℝ :=
  W3P5P - W3P5 - W35P + W35

/-- `gs4s4`, spinel.c 356. -/
def gs4s4 : ℝ :=
  -W55

/-- `H`, spinel.c 1580-1594. -/
def H (r0 r1 r2 r3 s0 s1 s2 : ℝ) : ℝ :=
  g0 + gx2 * r0 + gx3 * r1 + gx4 * r2 + gx5 * r3 + gs1 * s0 + gs2 * s1 + gs3 * r1 + hs4 * s2 + gx2x2 * r0 * r0
    + gx2x3 * r0 * r1 + gx2x4 * r0 * r2 + gx2x5 * r0 * r3 + gx2s1 * r0 * s0 + gx2s2 * r0 * s1 + gx2s3 * r0 * r1
    + gx2s4 * r0 * s2 + gx3x3 * r1 * r1 + gx3x4 * r1 * r2 + gx3x5 * r1 * r3 + gx3s1 * r1 * s0 + gx3s2 * r1 * s1
    + gx3s3 * r1 * r1 + gx3s4 * r1 * s2 + gx4x4 * r2 * r2 + gx4x5 * r2 * r3 + gx4s1 * r2 * s0 + gx4s2 * r2 * s1
    + gx4s3 * r2 * r1 + gx4s4 * r2 * s2 + gx5x5 * r3 * r3 + gx5s1 * r3 * s0 + gx5s2 * r3 * s1 + gx5s3 * r3 * r1
    + gx5s4 * r3 * s2 + gs1s1 * s0 * s0 + gs1s2 * s0 * s1 + gs1s3 * s0 * r1 + gs1s4 * s0 * s2 + gs2s2 * s1 * s1
    + gs2s3 * s1 * r1 + gs2s4 * s1 * s2 + gs3s3 * r1 * r1 + gs3s4 * r1 * s2 + gs4s4 * s2 * s2

/-- `WV1`, spinel.c 229. -/
def WV1 : ℝ :=
  -(1 / 8)

/-- `WV2`, spinel.c 230. -/
def WV2 : ℝ :=
  (509 / 5000)

/-- `G`, spinel.c 1595. -/
def G (t p r0 r1 r2 r3 s0 s1 s2 xmg2tet xfe2tet xal3tet xfe3tet xmg2oct xfe2oct xal3oct xfe3oct xcr3oct xti4oct : ℝ) : ℝ :=
  H r0 r1 r2 r3 s0 s1 s2 - t * (S s2 xmg2tet xfe2tet xal3tet xfe3tet xmg2oct xfe2oct xal3oct xfe3oct xcr3oct
    xti4oct) + r2 * r3 * (WV1 * r3 + WV2 * r2) * (p - 1)

/-- `DGDR0`, spinel.c 1599-1601. -/
def DGDR0 (t r0 r1 r2 r3 s0 s1 s2 xmg2tet xfe2tet xmg2oct xfe2oct : ℝ) : ℝ :=
  gx2 + 2 * gx2x2 * r0 + gx2x3 * r1 + gx2x4 * r2 + gx2x5 * r3 + gx2s1 * s0 + gx2s2 * s1 + gx2s3 * r1 + gx2s4 *
    s2 + (1 / 2) * R * t * (Real.log (xmg2tet / xfe2tet) + Real.log (xmg2oct / xfe2oct))

/-- `DGDR1`, spinel.c 1602-1607. -/
def DGDR1 (t r0 r1 r2 r3 s0 s1 s2 xfe2tet xal3tet xfe2oct xal3oct xcr3oct : ℝ) : ℝ :=
  gx3 + gx2x3 * r0 + 2 * gx3x3 * r1 + gx3x4 * r2 + gx3x5 * r3 + gx3s1 * s0 + gx3s2 * s1 + gx3s3 * r1 + gx3s4 *
    s2 + gs3 + gx2s3 * r0 + gx3s3 * r1 + gx4s3 * r2 + gx5s3 * r3 + gs1s3 * s0 + gs2s3 * s1 + 2 * gs3s3 * r1 +
    gs3s4 * s2 + R * t * (Real.log (xfe2tet / xal3tet) + 2 * Real.log xcr3oct - Real.log xfe2oct - Real.log
    xal3oct)

/-- `DGDR2`, spinel.c 1608-1611. -/
def DGDR2 (t p r0 r1 r2 r3 s0 s1 s2 xfe2tet xal3tet xal3oct xti4oct : ℝ) : ℝ :=
  gx4 + gx2x4 * r0 + gx3x4 * r1 + 2 * gx4x4 * r2 + gx4x5 * r3 + gx4s1 * s0 + gx4s2 * s1 + gx4s3 * r1 + gx4s4 *
    s2 + R * t * (Real.log (xfe2tet / xal3tet) + Real.log (xti4oct / xal3oct)) + r3 * (WV1 * r3 + WV2 * r2) * (p
    - 1) + r2 * r3 * WV2 * (p - 1)

/-- `DGDR3`, spinel.c 1612-1615. -/
def DGDR3 (t p r0 r1 r2 r3 s0 s1 s2 xal3tet xfe3tet xal3oct xfe3oct : ℝ) : ℝ :=
  gx5 + gx2x5 * r0 + gx3x5 * r1 + gx4x5 * r2 + 2 * gx5x5 * r3 + gx5s1 * s0 + gx5s2 * s1 + gx5s3 * r1 + gx5s4 *
    s2 + R * t * (Real.log (xfe3tet / xal3tet) + Real.log (xfe3oct / xal3oct)) + r2 * (WV1 * r3 + WV2 * r2) * (p
    - 1) + r2 * r3 * WV1 * (p - 1)

/-- `DGDS0`, spinel.c 1616-1618. -/
def DGDS0 (t r0 r1 r2 r3 s0 s1 s2 xmg2tet xfe2tet xmg2oct xfe2oct : ℝ) : ℝ :=
  gs1 + gx2s1 * r0 + gx3s1 * r1 + gx4s1 * r2 + gx5s1 * r3 + 2 * gs1s1 * s0 + gs1s2 * s1 + gs1s3 * r1 + gs1s4 *
    s2 + (1 / 2) * R * t * (Real.log (xmg2tet / xfe2tet) + Real.log (xfe2oct / xmg2oct))

/-- `DGDS1`, spinel.c 1619-1621. -/
def DGDS1 (t r0 r1 r2 r3 s0 s1 s2 xfe2tet xal3tet xfe2oct xal3oct : ℝ) : ℝ :=
  gs2 + gx2s2 * r0 + gx3s2 * r1 + gx4s2 * r2 + gx5s2 * r3 + gs1s2 * s0 + 2 * gs2s2 * s1 + gs2s3 * r1 + gs2s4 *
    s2 + R * t * (Real.log (xfe2tet / xal3tet) + Real.log (xal3oct / xfe2oct))

/-- `DGDS2`, spinel.c 1622-1624. -/
def DGDS2 (t r0 r1 r2 r3 s0 s1 s2 xfe2tet xfe3tet xfe2oct xfe3oct : ℝ) : ℝ :=
  hs4 - t * ss4 + gx2s4 * r0 + gx3s4 * r1 + gx4s4 * r2 + gx5s4 * r3 + gs1s4 * s0 + gs2s4 * s1 + gs3s4 * r1 + 2
    * gs4s4 * s2 + R * t * (Real.log (xfe2tet / xfe3tet) + Real.log (xfe3oct / xfe2oct))

/-- `DGDT`, spinel.c 1625. -/
def DGDT (s2 xmg2tet xfe2tet xal3tet xfe3tet xmg2oct xfe2oct xal3oct xfe3oct xcr3oct xti4oct : ℝ) : ℝ :=
  -(S s2 xmg2tet xfe2tet xal3tet xfe3tet xmg2oct xfe2oct xal3oct xfe3oct xcr3oct xti4oct)

/-- `DGDP`, spinel.c 1626. -/
def DGDP (r2 r3 : ℝ) : ℝ :=
  r2 * r3 * (WV1 * r3 + WV2 * r2)

/-- `D2GDR0R0`, spinel.c 1630-1631. -/
def D2GDR0R0 (t xmg2tet xfe2tet xmg2oct xfe2oct : ℝ) : ℝ :=
  2 * gx2x2 + (1 / 4) * R * t * (1 / xmg2tet + 1 / xfe2tet + (1 / 2) / xmg2oct + (1 / 2) / xfe2oct)

/-- `D2GDR0R1`, spinel.c 1632. -/
def D2GDR0R1 (t xfe2tet xfe2oct : ℝ) : ℝ :=
  gx2x3 + gx2s3 + (1 / 2) * R * t * ((-1) / xfe2tet + (1 / 2) / xfe2oct)

/-- `D2GDR0R2`, spinel.c 1633. -/
def D2GDR0R2 (t xfe2tet : ℝ) : ℝ :=
  gx2x4 + (1 / 2) * R * t * ((-1) / xfe2tet)

/-- `D2GDR0R3`, spinel.c 1634. -/
def D2GDR0R3 : ℝ :=
  gx2x5

/-- `D2GDR0S0`, spinel.c 1635-1636. -/
def D2GDR0S0 (t xmg2tet xfe2tet xmg2oct xfe2oct : ℝ) : ℝ :=
  gx2s1 + (1 / 4) * R * t * (1 / xmg2tet + 1 / xfe2tet - (1 / 2) / xmg2oct - (1 / 2) / xfe2oct)

/-- `D2GDR0S1`, spinel.c 1637. -/
def D2GDR0S1 (t xfe2tet xfe2oct : ℝ) : ℝ :=
  gx2s2 + (1 / 2) * R * t * ((-1) / xfe2tet + (1 / 2) / xfe2oct)

/-- `D2GDR0S2`, spinel.c 1638. -/
def D2GDR0S2 (t xfe2tet xfe2oct : ℝ) : ℝ :=
  gx2s4 + (1 / 2) * R * t * ((-1) / xfe2tet + (1 / 2) / xfe2oct)

/-- `D2GDR0DT`, spinel.c 1639-1640. -/
def D2GDR0DT (xmg2tet xfe2tet xmg2oct xfe2oct : ℝ) : ℝ :=
  (1 / 2) * R * (Real.log xmg2tet - Real.log xfe2tet + Real.log xmg2oct - Real.log xfe2oct)

/-- `D2GDR0DP`, spinel.c 1641. -/
def D2GDR0DP : ℝ :=
  0

/-- `D2GDR1R1`, spinel.c 1643-1644. -/
def D2GDR1R1 (t xfe2tet xal3tet xfe2oct xal3oct xcr3oct : ℝ) : ℝ :=
  2 * (gx3x3 + gx3s3 + gs3s3) + R * t * (1 / xfe2tet + 1 / xal3tet + 2 / xcr3oct + (1 / 2) / xfe2oct + (1 / 2)
    / xal3oct)

/-- `D2GDR1R2`, spinel.c 1645. -/
def D2GDR1R2 (t xfe2tet xal3tet xal3oct : ℝ) : ℝ :=
  gx3x4 + gx4s3 + R * t * (1 / xfe2tet + 1 / xal3tet + (1 / 2) / xal3oct)

/-- `D2GDR1R3`, spinel.c 1646. -/
def D2GDR1R3 (t xal3tet xal3oct : ℝ) : ℝ :=
  gx3x5 + gx5s3 + R * t * (1 / xal3tet + (1 / 2) / xal3oct)

/-- `D2GDR1S0`, spinel.c 1647. -/
def D2GDR1S0 (t xfe2tet xfe2oct : ℝ) : ℝ :=
  gx3s1 + gs1s3 + R * t * ((-(1 / 2)) / xfe2tet - (1 / 4) / xfe2oct)

/-- `D2GDR1S1`, spinel.c 1648-1649. -/
def D2GDR1S1 (t xfe2tet xal3tet xfe2oct xal3oct : ℝ) : ℝ :=
  gx3s2 + gs2s3 + R * t * (1 / xfe2tet + 1 / xal3tet + (1 / 2) / xfe2oct - (1 / 2) / xal3oct)

/-- `D2GDR1S2`, spinel.c 1650. -/
def D2GDR1S2 (t xfe2tet xfe2oct : ℝ) : ℝ :=
  gx3s4 + gs3s4 + R * t * (1 / xfe2tet + (1 / 2) / xfe2oct)

/-- `D2GDR1DT`, spinel.c 1651-1652. -/
def D2GDR1DT (xfe2tet xal3tet xfe2oct xal3oct xcr3oct : ℝ) : ℝ :=
  R * (Real.log (xfe2tet / xal3tet) + 2 * Real.log xcr3oct - Real.log xfe2oct + (-Real.log xal3oct))

/-- `D2GDR1DP`, spinel.c 1653. -/
def D2GDR1DP : ℝ :=
  0

/-- `D2GDR2R2`, spinel.c 1655-1656. -/
def D2GDR2R2 (t p r3 xfe2tet xal3tet xal3oct xti4oct : ℝ) : ℝ :=
  2 * gx4x4 + R * t * (1 / xfe2tet + 1 / xal3tet + (1 / 2) / xti4oct + (1 / 2) / xal3oct) + 2 * r3 * WV2 * (p
    - 1)

/-- `D2GDR2R3`, spinel.c 1657-1658. -/
def D2GDR2R3 (t p r2 r3 xal3tet xal3oct : ℝ) : ℝ :=
  gx4x5 + R * t * (1 / xal3tet + (1 / 2) / xal3oct) + (WV1 * r3 + WV2 * r2) * (p - 1) + r3 * WV1 * (p - 1) +
    r2 * WV2 * (p - 1)

/-- `D2GDR2S0`, spinel.c 1659. -/
def D2GDR2S0 (t xfe2tet : ℝ) : ℝ :=
  gx4s1 + R * t * ((-(1 / 2)) / xfe2tet)

/-- `D2GDR2S1`, spinel.c 1660. -/
def D2GDR2S1 (t xfe2tet xal3tet xal3oct : ℝ) : ℝ :=
  gx4s2 + R * t * (1 / xfe2tet + 1 / xal3tet - (1 / 2) / xal3oct)

/-- `D2GDR2S2`, spinel.c 1661. -/
def D2GDR2S2 (t xfe2tet : ℝ) : ℝ :=
  gx4s4 + R * t * (1 / xfe2tet)

/-- `D2GDR2DT`, spinel.c 1662. -/
def D2GDR2DT (xfe2tet xal3tet xal3oct xti4oct : ℝ) : ℝ :=
  R * (Real.log (xfe2tet / xal3tet) + Real.log (xti4oct / xal3oct))

/-- `D2GDR2DP`, spinel.c 1663. -/
def D2GDR2DP (r2 r3 : ℝ) : ℝ :=
  r3 * (WV1 * r3 + WV2 * r2) + r2 * r3 * WV2

/-- `D2GDR3R3`, spinel.c 1665-1666. -/
def D2GDR3R3 (t p r2 xal3tet xfe3tet xal3oct xfe3oct : ℝ) : ℝ :=
  2 * gx5x5 + R * t * (1 / xfe3tet + 1 / xal3tet + (1 / 2) / xfe3oct + (1 / 2) / xal3oct) + 2 * r2 * WV1 * (p
    - 1)

/-- `D2GDR3S0`, spinel.c 1667. -/
def D2GDR3S0 : ℝ :=
  gx5s1

/-- `D2GDR3S1`, spinel.c 1668. -/
def D2GDR3S1 (t xal3tet xal3oct : ℝ) : ℝ :=
  gx5s2 + R * t * (1 / xal3tet - (1 / 2) / xal3oct)

/-- `D2GDR3S2`, spinel.c 1669. -/
def D2GDR3S2 (t xfe3tet xfe3oct : ℝ) : ℝ :=
  gx5s4 + R * t * ((-1) / xfe3tet + (1 / 2) / xfe3oct)

/-- `D2GDR3DT`, spinel.c 1670. -/
def D2GDR3DT (xal3tet xfe3tet xal3oct xfe3oct : ℝ) : ℝ :=
  R * (Real.log (xfe3tet / xal3tet) + Real.log (xfe3oct / xal3oct))

/-- `D2GDR3DP`, spinel.c 1671. -/
def D2GDR3DP (r2 r3 : ℝ) : ℝ :=
  r2 * (WV1 * r3 + WV2 * r2) + r2 * r3 * WV1

/-- `D2GDS0S0`, spinel.c 1673-1674. -/
def D2GDS0S0 (t xmg2tet xfe2tet xmg2oct xfe2oct : ℝ) : ℝ :=
  2 * gs1s1 + (1 / 4) * R * t * (1 / xmg2tet + 1 / xfe2tet + (1 / 2) / xfe2oct + (1 / 2) / xmg2oct)

/-- `D2GDS0S1`, spinel.c 1675. -/
def D2GDS0S1 (t xfe2tet xfe2oct : ℝ) : ℝ :=
  gs1s2 + (1 / 2) * R * t * ((-1) / xfe2tet - (1 / 2) / xfe2oct)

/-- `D2GDS0S2`, spinel.c 1676. -/
def D2GDS0S2 (t xfe2tet xfe2oct : ℝ) : ℝ :=
  gs1s4 + (1 / 2) * R * t * ((-1) / xfe2tet - (1 / 2) / xfe2oct)

/-- `D2GDS0DT`, spinel.c 1677. -/
def D2GDS0DT (xmg2tet xfe2tet xmg2oct xfe2oct : ℝ) : ℝ :=
  (1 / 2) * R * (Real.log (xmg2tet / xfe2tet) + Real.log (xfe2oct / xmg2oct))

/-- `D2GDS0DP`, spinel.c 1678. -/
def D2GDS0DP : ℝ :=
  0

/-- `D2GDS1S1`, spinel.c 1680-1681. -/
def D2GDS1S1 (t xfe2tet xal3tet xfe2oct xal3oct : ℝ) : ℝ :=
  2 * gs2s2 + R * t * (1 / xfe2tet + 1 / xal3tet + (1 / 2) / xal3oct + (1 / 2) / xfe2oct)

/-- `D2GDS1S2`, spinel.c 1682. -/
def D2GDS1S2 (t xfe2tet xfe2oct : ℝ) : ℝ :=
  gs2s4 + R * t * (1 / xfe2tet + (1 / 2) / xfe2oct)

/-- `D2GDS1DT`, spinel.c 1683. -/
def D2GDS1DT (xfe2tet xal3tet xfe2oct xal3oct : ℝ) : ℝ :=
  R * (Real.log (xfe2tet / xal3tet) + Real.log (xal3oct / xfe2oct))

/-- `D2GDS1DP`, spinel.c 1684. -/
def D2GDS1DP : ℝ :=
  0

/-- `D2GDS2S2`, spinel.c 1686-1687. -/
def D2GDS2S2 (t xfe2tet xfe3tet xfe2oct xfe3oct : ℝ) : ℝ :=
  2 * gs4s4 + R * t * (1 / xfe2tet + 1 / xfe3tet + (1 / 2) / xfe3oct + (1 / 2) / xfe2oct)

/-- `D2GDS2DT`, spinel.c 1688. -/
def D2GDS2DT (xfe2tet xfe3tet xfe2oct xfe3oct : ℝ) : ℝ :=
  R * (Real.log (xfe2tet / xfe3tet) + Real.log (xfe3oct / xfe2oct)) - ss4

/-- `D2GDS2DP`, spinel.c 1689. -/
def D2GDS2DP : ℝ :=
  0

/-- `D2GDT2`, spinel.c 1691. -/
def D2GDT2 : ℝ :=
  0

/-- `D2GDTDP`, spinel.c 1692. -/
def D2GDTDP : ℝ :=
  0

/-- `D2GDP2`, spinel.c 1693. -/
def D2GDP2 : ℝ :=
  0

/-- `D3GDR0R0R0`, spinel.c 1697-1698. -/
def D3GDR0R0R0 (t xmg2tet xfe2tet xmg2oct xfe2oct : ℝ) : ℝ :=
  (-(1 / 8)) * R * t * (1 / xmg2tet ^ 2 - 1 / xfe2tet ^ 2 + (1 / 4) / xmg2oct ^ 2 - (1 / 4) / xfe2oct ^ 2)

/-- `D3GDR0R0R1`, spinel.c 1699. -/
def D3GDR0R0R1 (t xfe2tet xfe2oct : ℝ) : ℝ :=
  (-(1 / 4)) * R * t * (1 / xfe2tet ^ 2 - (1 / 4) / xfe2oct ^ 2)

/-- `D3GDR0R0R2`, spinel.c 1700. -/
def D3GDR0R0R2 (t xfe2tet : ℝ) : ℝ :=
  (-(1 / 4)) * R * t * (1 / xfe2tet ^ 2)

/-- `D3GDR0R0R3`, spinel.c 1701. -/
def D3GDR0R0R3 : ℝ :=
  0

/-- `D3GDR0R1R1`, spinel.c 1702. -/
def D3GDR0R1R1 (t xfe2tet xfe2oct : ℝ) : ℝ :=
  (1 / 2) * R * t * (1 / xfe2tet ^ 2 + (1 / 4) / xfe2oct ^ 2)

/-- `D3GDR0R1R2`, spinel.c 1703. -/
def D3GDR0R1R2 (t xfe2tet : ℝ) : ℝ :=
  (1 / 2) * R * t * (1 / xfe2tet ^ 2)

/-- `D3GDR0R1R3`, spinel.c 1704. -/
def D3GDR0R1R3 : ℝ :=
  0

/-- `D3GDR0R2R2`, spinel.c 1705. -/
def D3GDR0R2R2 (t xfe2tet : ℝ) : ℝ :=
  (1 / 2) * R * t * (1 / xfe2tet ^ 2)

/-- `D3GDR0R2R3`, spinel.c 1706. -/
def D3GDR0R2R3 : ℝ :=
  0

/-- `D3GDR0R3R3`, spinel.c 1707. -/
def D3GDR0R3R3 : ℝ :=
  0

/-- `D3GDR0R0S0`, spinel.c 1709-1710. -/
def D3GDR0R0S0 (t xmg2tet xfe2tet xmg2oct xfe2oct : ℝ) : ℝ :=
  (-(1 / 8)) * R * t * (1 / xmg2tet ^ 2 - 1 / xfe2tet ^ 2 - (1 / 4) / xmg2oct ^ 2 + (1 / 4) / xfe2oct ^ 2)

/-- `D3GDR0R0S1`, spinel.c 1711. -/
def D3GDR0R0S1 (t xfe2tet xfe2oct : ℝ) : ℝ :=
  (-(1 / 4)) * R * t * (1 / xfe2tet ^ 2 - (1 / 4) / xfe2oct ^ 2)

/-- `D3GDR0R0S2`, spinel.c 1712. -/
def D3GDR0R0S2 (t xfe2tet xfe2oct : ℝ) : ℝ :=
  (-(1 / 4)) * R * t * (1 / xfe2tet ^ 2 - (1 / 4) / xfe2oct ^ 2)

/-- `D3GDR0R0DT`, spinel.c 1713-1714. -/
def D3GDR0R0DT (xmg2tet xfe2tet xmg2oct xfe2oct : ℝ) : ℝ :=
  (1 / 4) * R * (1 / xmg2tet + 1 / xfe2tet + (1 / 2) / xmg2oct + (1 / 2) / xfe2oct)

/-- `D3GDR0R0DP`, spinel.c 1715. -/
def D3GDR0R0DP : ℝ :=
  0

/-- `D3GDR0R1S0`, spinel.c 1717. -/
def D3GDR0R1S0 (t xfe2tet xfe2oct : ℝ) : ℝ :=
  (-(1 / 4)) * R * t * (1 / xfe2tet ^ 2 + (1 / 4) / xfe2oct ^ 2)

/-- `D3GDR0R1S1`, spinel.c 1718. -/
def D3GDR0R1S1 (t xfe2tet xfe2oct : ℝ) : ℝ :=
  (-(1 / 2)) * R * t * ((-1) / xfe2tet ^ 2 - (1 / 4) / xfe2oct ^ 2)

/-- `D3GDR0R1S2`, spinel.c 1719. -/
def D3GDR0R1S2 (t xfe2tet xfe2oct : ℝ) : ℝ :=
  (-(1 / 2)) * R * t * ((-1) / xfe2tet ^ 2 - (1 / 4) / xfe2oct ^ 2)

/-- `D3GDR0R1DT`, spinel.c 1720. -/
def D3GDR0R1DT (xfe2tet xfe2oct : ℝ) : ℝ :=
  (1 / 2) * R * ((-1) / xfe2tet + (1 / 2) / xfe2oct)

/-- `D3GDR0R1DP`, spinel.c 1721. -/
def D3GDR0R1DP : ℝ :=
  0

/-- `D3GDR0R2S0`, spinel.c 1723. -/
def D3GDR0R2S0 (t xfe2tet : ℝ) : ℝ :=
  (-(1 / 4)) * R * t * (1 / xfe2tet ^ 2)

/-- `D3GDR0R2S1`, spinel.c 1724. -/
def D3GDR0R2S1 (t xfe2tet : ℝ) : ℝ :=
  (-(1 / 2)) * R * t * ((-1) / xfe2tet ^ 2)

/-- `D3GDR0R2S2`, spinel.c 1725. -/
def D3GDR0R2S2 (t xfe2tet : ℝ) : ℝ :=
  (-(1 / 2)) * R * t * ((-1) / xfe2tet ^ 2)

/-- `D3GDR0R2DT`, spinel.c 1726. -/
def D3GDR0R2DT (xfe2tet : ℝ) : ℝ :=
  (1 / 2) * R * ((-1) / xfe2tet)

/-- `D3GDR0R2DP`, spinel.c 1727. -/
def D3GDR0R2DP : ℝ :=
  0

/-- `D3GDR0R3S0`, spinel.c 1729. -/
def D3GDR0R3S0 : ℝ :=
  0

/-- `D3GDR0R3S1`, spinel.c 1730. -/
def D3GDR0R3S1 : ℝ :=
  0

/-- `D3GDR0R3S2`, spinel.c 1731. -/
def D3GDR0R3S2 : ℝ :=
  0

/-- `D3GDR0R3DT`, spinel.c 1732. -/
def D3GDR0R3DT : ℝ :=
  0

/-- `D3GDR0R3DP`, spinel.c 1733. -/
def D3GDR0R3DP : ℝ :=
  0

/-- `D3GDR0S0S0`, spinel.c 1735-1736. -/
def D3GDR0S0S0 (t xmg2tet xfe2tet xmg2oct xfe2oct : ℝ) : ℝ :=
  (-(1 / 8)) * R * t * (1 / xmg2tet ^ 2 - 1 / xfe2tet ^ 2 + (1 / 4) / xmg2oct ^ 2 - (1 / 4) / xfe2oct ^ 2)

/-- `D3GDR0S0S1`, spinel.c 1737. -/
def D3GDR0S0S1 (t xfe2tet xfe2oct : ℝ) : ℝ :=
  (-(1 / 4)) * R * t * (1 / xfe2tet ^ 2 + (1 / 4) / xfe2oct ^ 2)

/-- `D3GDR0S0S2`, spinel.c 1738. -/
def D3GDR0S0S2 (t xfe2tet xfe2oct : ℝ) : ℝ :=
  (-(1 / 4)) * R * t * (1 / xfe2tet ^ 2 + (1 / 4) / xfe2oct ^ 2)

/-- `D3GDR0S0DT`, spinel.c 1739-1740. -/
def D3GDR0S0DT (xmg2tet xfe2tet xmg2oct xfe2oct : ℝ) : ℝ :=
  (1 / 4) * R * (1 / xmg2tet + 1 / xfe2tet - (1 / 2) / xmg2oct - (1 / 2) / xfe2oct)

/-- `D3GDR0S0DP`, spinel.c 1741. -/
def D3GDR0S0DP : ℝ :=
  0

/-- `D3GDR0S1S1`, spinel.c 1743. -/
def D3GDR0S1S1 (t xfe2tet xfe2oct : ℝ) : ℝ :=
  (-(1 / 2)) * R * t * ((-1) / xfe2tet ^ 2 - (1 / 4) / xfe2oct ^ 2)

/-- `D3GDR0S1S2`, spinel.c 1744. -/
def D3GDR0S1S2 (t xfe2tet xfe2oct : ℝ) : ℝ :=
  (-(1 / 2)) * R * t * ((-1) / xfe2tet ^ 2 - (1 / 4) / xfe2oct ^ 2)

/-- `D3GDR0S1DT`, spinel.c 1745. -/
def D3GDR0S1DT (xfe2tet xfe2oct : ℝ) : ℝ :=
  (1 / 2) * R * ((-1) / xfe2tet + (1 / 2) / xfe2oct)

/-- `D3GDR0S1DP`, spinel.c 1746. -/
def D3GDR0S1DP : ℝ :=
  0

/-- `D3GDR0S2S2`, spinel.c 1748. -/
def D3GDR0S2S2 (t xfe2tet xfe2oct : ℝ) : ℝ :=
  (-(1 / 2)) * R * t * ((-1) / xfe2tet ^ 2 - (1 / 4) / xfe2oct ^ 2)

/-- `D3GDR0S2DT`, spinel.c 1749. -/
def D3GDR0S2DT (xfe2tet xfe2oct : ℝ) : ℝ :=
  (1 / 2) * R * ((-1) / xfe2tet + (1 / 2) / xfe2oct)

/-- `D3GDR0S2DP`, spinel.c 1750. -/
def D3GDR0S2DP : ℝ :=
  0

/-- `D3GDR1R1R1`, spinel.c 1752-1754. -/
def D3GDR1R1R1 (t xfe2tet xal3tet xfe2oct xal3oct xcr3oct : ℝ) : ℝ :=
  R * t * ((-1) / xfe2tet ^ 2 + 1 / xal3tet ^ 2 - 2 / xcr3oct ^ 2 + (1 / 4) / xfe2oct ^ 2 + (1 / 4) / xal3oct
    ^ 2)

/-- `D3GDR1R1R2`, spinel.c 1755-1756. -/
def D3GDR1R1R2 (t xfe2tet xal3tet xal3oct : ℝ) : ℝ :=
  R * t * ((-1) / xfe2tet ^ 2 + 1 / xal3tet ^ 2 + (1 / 4) / xal3oct ^ 2)

/-- `D3GDR1R1R3`, spinel.c 1757. -/
def D3GDR1R1R3 (t xal3tet xal3oct : ℝ) : ℝ :=
  R * t * (1 / xal3tet ^ 2 + (1 / 4) / xal3oct ^ 2)

/-- `D3GDR1R2R2`, spinel.c 1758-1759. -/
def D3GDR1R2R2 (t xfe2tet xal3tet xal3oct : ℝ) : ℝ :=
  R * t * ((-1) / xfe2tet ^ 2 + 1 / xal3tet ^ 2 + (1 / 4) / xal3oct ^ 2)

/-- `D3GDR1R2R3`, spinel.c 1760. -/
def D3GDR1R2R3 (t xal3tet xal3oct : ℝ) : ℝ :=
  R * t * (1 / xal3tet ^ 2 + (1 / 4) / xal3oct ^ 2)

/-- `D3GDR1R3R3`, spinel.c 1761. -/
def D3GDR1R3R3 (t xal3tet xal3oct : ℝ) : ℝ :=
  R * t * (1 / xal3tet ^ 2 + (1 / 4) / xal3oct ^ 2)

/-- `D3GDR1R1S0`, spinel.c 1762. -/
def D3GDR1R1S0 (t xfe2tet xfe2oct : ℝ) : ℝ :=
  (-(1 / 2)) * R * t * ((-1) / xfe2tet ^ 2 + (1 / 4) / xfe2oct ^ 2)

/-- `D3GDR1R1S1`, spinel.c 1763-1764. -/
def D3GDR1R1S1 (t xfe2tet xal3tet xfe2oct xal3oct : ℝ) : ℝ :=
  (-R) * t * (1 / xfe2tet ^ 2 - 1 / xal3tet ^ 2 - (1 / 4) / xfe2oct ^ 2 + (1 / 4) / xal3oct ^ 2)

/-- `D3GDR1R1S2`, spinel.c 1765. -/
def D3GDR1R1S2 (t xfe2tet xfe2oct : ℝ) : ℝ :=
  (-R) * t * (1 / xfe2tet ^ 2 - (1 / 4) / xfe2oct ^ 2)

/-- `D3GDR1R1DT`, spinel.c 1766-1767. -/
def D3GDR1R1DT (xfe2tet xal3tet xfe2oct xal3oct xcr3oct : ℝ) : ℝ :=
  R * (1 / xfe2tet + 1 / xal3tet + 2 / xcr3oct + (1 / 2) / xfe2oct + (1 / 2) / xal3oct)

/-- `D3GDR1R1DP`, spinel.c 1768. -/
def D3GDR1R1DP : ℝ :=
  0

/-- `D3GDR1R2S0`, spinel.c 1770. -/
def D3GDR1R2S0 (t xfe2tet : ℝ) : ℝ :=
  (-R) * t * ((-(1 / 2)) / xfe2tet ^ 2)

/-- `D3GDR1R2S1`, spinel.c 1771-1772. -/
def D3GDR1R2S1 (t xfe2tet xal3tet xal3oct : ℝ) : ℝ :=
  (-R) * t * (1 / xfe2tet ^ 2 - 1 / xal3tet ^ 2 + (1 / 4) / xal3oct ^ 2)

/-- `D3GDR1R2S2`, spinel.c 1773. -/
def D3GDR1R2S2 (t xfe2tet : ℝ) : ℝ :=
  (-R) * t * (1 / xfe2tet ^ 2)

/-- `D3GDR1R2DT`, spinel.c 1774. -/
def D3GDR1R2DT (xfe2tet xal3tet xal3oct : ℝ) : ℝ :=
  R * (1 / xfe2tet + 1 / xal3tet + (1 / 2) / xal3oct)

/-- `D3GDR1R2DP`, spinel.c 1775. -/
def D3GDR1R2DP : ℝ :=
  0

/-- `D3GDR1R3S0`, spinel.c 1777. -/
def D3GDR1R3S0 : ℝ :=
  0

/-- `D3GDR1R3S1`, spinel.c 1778. -/
def D3GDR1R3S1 (t xal3tet xal3oct : ℝ) : ℝ :=
  (-R) * t * ((-1) / xal3tet ^ 2 + (1 / 4) / xal3oct ^ 2)

/-- `D3GDR1R3S2`, spinel.c 1779. -/
def D3GDR1R3S2 : ℝ :=
  0

/-- `D3GDR1R3DT`, spinel.c 1780. -/
def D3GDR1R3DT (xal3tet xal3oct : ℝ) : ℝ :=
  R * (1 / xal3tet + (1 / 2) / xal3oct)

/-- `D3GDR1R3DP`, spinel.c 1781. -/
def D3GDR1R3DP : ℝ :=
  0

/-- `D3GDR1S0S0`, spinel.c 1783. -/
def D3GDR1S0S0 (t xfe2tet xfe2oct : ℝ) : ℝ :=
  (-(1 / 4)) * R * t * (1 / xfe2tet ^ 2 - (1 / 4) / xfe2oct ^ 2)

/-- `D3GDR1S0S1`, spinel.c 1784. -/
def D3GDR1S0S1 (t xfe2tet xfe2oct : ℝ) : ℝ :=
  (-(1 / 2)) * R * t * ((-1) / xfe2tet ^ 2 + (1 / 4) / xfe2oct ^ 2)

/-- `D3GDR1S0S2`, spinel.c 1785. -/
def D3GDR1S0S2 (t xfe2tet xfe2oct : ℝ) : ℝ :=
  (-(1 / 2)) * R * t * ((-1) / xfe2tet ^ 2 + (1 / 4) / xfe2oct ^ 2)

/-- `D3GDR1S0DT`, spinel.c 1786. -/
def D3GDR1S0DT (xfe2tet xfe2oct : ℝ) : ℝ :=
  R * ((-(1 / 2)) / xfe2tet - (1 / 4) / xfe2oct)

/-- `D3GDR1S0DP`, spinel.c 1787. -/
def D3GDR1S0DP : ℝ :=
  0

/-- `D3GDR1S1S1`, spinel.c 1789-1790. -/
def D3GDR1S1S1 (t xfe2tet xal3tet xfe2oct xal3oct : ℝ) : ℝ :=
  (-R) * t * (1 / xfe2tet ^ 2 - 1 / xal3tet ^ 2 - (1 / 4) / xfe2oct ^ 2 - (1 / 4) / xal3oct ^ 2)

/-- `D3GDR1S1S2`, spinel.c 1791. -/
def D3GDR1S1S2 (t xfe2tet xfe2oct : ℝ) : ℝ :=
  (-R) * t * (1 / xfe2tet ^ 2 - (1 / 4) / xfe2oct ^ 2)

/-- `D3GDR1S1DT`, spinel.c 1792. -/
def D3GDR1S1DT (xfe2tet xal3tet xfe2oct xal3oct : ℝ) : ℝ :=
  R * (1 / xfe2tet + 1 / xal3tet + (1 / 2) / xfe2oct - (1 / 2) / xal3oct)

/-- `D3GDR1S1DP`, spinel.c 1793. -/
def D3GDR1S1DP : ℝ :=
  0

/-- `D3GDR1S2S2`, spinel.c 1795. -/
def D3GDR1S2S2 (t xfe2tet xfe2oct : ℝ) : ℝ :=
  (-R) * t * (1 / xfe2tet ^ 2 - (1 / 4) / xfe2oct ^ 2)

/-- `D3GDR1S2DT`, spinel.c 1796. -/
def D3GDR1S2DT (xfe2tet xfe2oct : ℝ) : ℝ :=
  R * (1 / xfe2tet + (1 / 2) / xfe2oct)

/-- `D3GDR1S2DP`, spinel.c 1797. -/
def D3GDR1S2DP : ℝ :=
  0

/-- `D3GDR2R2R2`, spinel.c 1799-1800. -/
def D3GDR2R2R2 (t xfe2tet xal3tet xal3oct xti4oct : ℝ) : ℝ :=
  R * t * ((-1) / xfe2tet ^ 2 + 1 / xal3tet ^ 2 + (1 / 4) / xal3oct ^ 2 - (1 / 4) / xti4oct ^ 2)

/-- `D3GDR2R2R3`, spinel.c 1801. -/
def D3GDR2R2R3 (t p xal3tet xal3oct : ℝ) : ℝ :=
  R * t * (1 / xal3tet ^ 2 + (1 / 4) / xal3oct ^ 2) + 2 * WV2 * (p - 1)

/-- `D3GDR2R3R3`, spinel.c 1802. -/
def D3GDR2R3R3 (t p xal3tet xal3oct : ℝ) : ℝ :=
  R * t * (1 / xal3tet ^ 2 + (1 / 4) / xal3oct ^ 2) + 2 * WV1 * (p - 1)

/-- `D3GDR2R2S0`, spinel.c 1803. -/
def D3GDR2R2S0 (t xfe2tet : ℝ) : ℝ :=
  (-R) * t * ((-(1 / 2)) / xfe2tet ^ 2)

/-- `D3GDR2R2S1`, spinel.c 1804-1805. -/
def D3GDR2R2S1 (t xfe2tet xal3tet xal3oct : ℝ) : ℝ :=
  (-R) * t * (1 / xfe2tet ^ 2 - 1 / xal3tet ^ 2 + (1 / 4) / xal3oct ^ 2)

/-- `D3GDR2R2S2`, spinel.c 1806. -/
def D3GDR2R2S2 (t xfe2tet : ℝ) : ℝ :=
  (-R) * t * (1 / xfe2tet ^ 2)

/-- `D3GDR2R2DT`, spinel.c 1807. -/
def D3GDR2R2DT (xfe2tet xal3tet xal3oct xti4oct : ℝ) : ℝ :=
  R * (1 / xfe2tet + 1 / xal3tet + (1 / 2) / xti4oct + (1 / 2) / xal3oct)

/-- `D3GDR2R2DP`, spinel.c 1808. -/
def D3GDR2R2DP (r3 : ℝ) : ℝ :=
  2 * r3 * WV2

/-- `D3GDR2R3S0`, spinel.c 1810. -/
def D3GDR2R3S0 : ℝ :=
  0

/-- `D3GDR2R3S1`, spinel.c 1811. -/
def D3GDR2R3S1 (t xal3tet xal3oct : ℝ) : ℝ :=
  (-R) * t * ((-1) / xal3tet ^ 2 + (1 / 4) / xal3oct ^ 2)

/-- `D3GDR2R3S2`, spinel.c 1812. -/
def D3GDR2R3S2 : ℝ :=
  0

/-- `D3GDR2R3DT`, spinel.c 1813. -/
def D3GDR2R3DT (xal3tet xal3oct : ℝ) : ℝ :=
  R * (1 / xal3tet + (1 / 2) / xal3oct)

/-- `D3GDR2R3DP`, spinel.c 1814. -/
def D3GDR2R3DP (r2 r3 : ℝ) : ℝ :=
  2 * r3 * WV1 + 2 * r2 * WV2

/-- `D3GDR2S0S0`, spinel.c 1816. -/
def D3GDR2S0S0 (t xfe2tet : ℝ) : ℝ :=
  (-R) * t * ((1 / 4) / xfe2tet ^ 2)

/-- `D3GDR2S0S1`, spinel.c 1817. -/
def D3GDR2S0S1 (t xfe2tet : ℝ) : ℝ :=
  (-R) * t * ((-(1 / 2)) / xfe2tet ^ 2)

/-- `D3GDR2S0S2`, spinel.c 1818. -/
def D3GDR2S0S2 (t xfe2tet : ℝ) : ℝ :=
  (-R) * t * ((-(1 / 2)) / xfe2tet ^ 2)

/-- `D3GDR2S0DT`, spinel.c 1819. -/
def D3GDR2S0DT (xfe2tet : ℝ) : ℝ :=
  R * ((-(1 / 2)) / xfe2tet)

/-- `D3GDR2S0DP`, spinel.c 1820. -/
def D3GDR2S0DP : ℝ :=
  0

/-- `D3GDR2S1S1`, spinel.c 1822-1823. -/
def D3GDR2S1S1 (t xfe2tet xal3tet xal3oct : ℝ) : ℝ :=
  (-R) * t * (1 / xfe2tet ^ 2 - 1 / xal3tet ^ 2 - (1 / 4) / xal3oct ^ 2)

/-- `D3GDR2S1S2`, spinel.c 1824. -/
def D3GDR2S1S2 (t xfe2tet : ℝ) : ℝ :=
  (-R) * t * (1 / xfe2tet ^ 2)

/-- `D3GDR2S1DT`, spinel.c 1825. -/
def D3GDR2S1DT (xfe2tet xal3tet xal3oct : ℝ) : ℝ :=
  R * (1 / xfe2tet + 1 / xal3tet - (1 / 2) / xal3oct)

/-- `D3GDR2S1DP`, spinel.c 1826. -/
def D3GDR2S1DP : ℝ :=
  0

/-- `D3GDR2S2S2`, spinel.c 1828. -/
def D3GDR2S2S2 (t xfe2tet : ℝ) : ℝ :=
  (-R) * t * (1 / xfe2tet ^ 2)

/-- `D3GDR2S2DT`, spinel.c 1829. -/
def D3GDR2S2DT (xfe2tet : ℝ) : ℝ :=
  R * (1 / xfe2tet)

/-- `D3GDR2S2DP`, spinel.c 1830. -/
def D3GDR2S2DP : ℝ :=
  0

/-- `D3GDR3R3R3`, spinel.c 1832-1833. -/
def D3GDR3R3R3 (t xal3tet xfe3tet xal3oct xfe3oct : ℝ) : ℝ :=
  R * t * ((-1) / xfe3tet ^ 2 + 1 / xal3tet ^ 2 - (1 / 4) / xfe3oct ^ 2 + (1 / 4) / xal3oct ^ 2)

/-- `D3GDR3R3S0`, spinel.c 1834. -/
def D3GDR3R3S0 : ℝ :=
  0

/-- `D3GDR3R3S1`, spinel.c 1835. -/
def D3GDR3R3S1 (t xal3tet xal3oct : ℝ) : ℝ :=
  (-R) * t * ((-1) / xal3tet ^ 2 + (1 / 4) / xal3oct ^ 2)

/-- `D3GDR3R3S2`, spinel.c 1836. -/
def D3GDR3R3S2 (t xfe3tet xfe3oct : ℝ) : ℝ :=
  (-R) * t * ((-1) / xfe3tet ^ 2 + (1 / 4) / xfe3oct ^ 2)

/-- `D3GDR3R3DT`, spinel.c 1837. -/
def D3GDR3R3DT (xal3tet xfe3tet xal3oct xfe3oct : ℝ) : ℝ :=
  R * (1 / xfe3tet + 1 / xal3tet + (1 / 2) / xfe3oct + (1 / 2) / xal3oct)

/-- `D3GDR3R3DP`, spinel.c 1838. -/
def D3GDR3R3DP (r2 : ℝ) : ℝ :=
  2 * r2 * WV1

/-- `D3GDR3S0S0`, spinel.c 1840. -/
def D3GDR3S0S0 : ℝ :=
  0

/-- `D3GDR3S0S1`, spinel.c 1841. -/
def D3GDR3S0S1 : ℝ :=
  0

/-- `D3GDR3S0S2`, spinel.c 1842. -/
def D3GDR3S0S2 : ℝ :=
  0

/-- `D3GDR3S0DT`, spinel.c 1843. -/
def D3GDR3S0DT : ℝ :=
  0

/-- `D3GDR3S0DP`, spinel.c 1844. -/
def D3GDR3S0DP : ℝ :=
  0

/-- `D3GDR3S1S1`, spinel.c 1846. -/
def D3GDR3S1S1 (t xal3tet xal3oct : ℝ) : ℝ :=
  (-R) * t * ((-1) / xal3tet ^ 2 - (1 / 4) / xal3oct ^ 2)

/-- `D3GDR3S1S2`, spinel.c 1847. -/
def D3GDR3S1S2 : ℝ :=
  0

/-- `D3GDR3S1DT`, spinel.c 1848. -/
def D3GDR3S1DT (xal3tet xal3oct : ℝ) : ℝ :=
  R * (1 / xal3tet - (1 / 2) / xal3oct)

/-- `D3GDR3S1DP`, spinel.c 1849. -/
def D3GDR3S1DP : ℝ :=
  0

/-- `D3GDR3S2S2`, spinel.c 1851. -/
def D3GDR3S2S2 (t xfe3tet xfe3oct : ℝ) : ℝ :=
  (-R) * t * (1 / xfe3tet ^ 2 + (1 / 4) / xfe3oct ^ 2)

/-- `D3GDR3S2DT`, spinel.c 1852. -/
def D3GDR3S2DT (xfe3tet xfe3oct : ℝ) : ℝ :=
  R * ((-1) / xfe3tet + (1 / 2) / xfe3oct)

/-- `D3GDR3S2DP`, spinel.c 1853. -/
def D3GDR3S2DP : ℝ :=
  0

/-- `D3GDS0S0S0`, spinel.c 1855-1856. -/
def D3GDS0S0S0 (t xmg2tet xfe2tet xmg2oct xfe2oct : ℝ) : ℝ :=
  (-(1 / 8)) * R * t * (1 / xmg2tet ^ 2 - 1 / xfe2tet ^ 2 + (1 / 4) / xfe2oct ^ 2 - (1 / 4) / xmg2oct ^ 2)

/-- `D3GDS0S0S1`, spinel.c 1857. -/
def D3GDS0S0S1 (t xfe2tet xfe2oct : ℝ) : ℝ :=
  (-(1 / 4)) * R * t * (1 / xfe2tet ^ 2 - (1 / 4) / xfe2oct ^ 2)

/-- `D3GDS0S0S2`, spinel.c 1858. -/
def D3GDS0S0S2 (t xfe2tet xfe2oct : ℝ) : ℝ :=
  (-(1 / 4)) * R * t * (1 / xfe2tet ^ 2 - (1 / 4) / xfe2oct ^ 2)

/-- `D3GDS0S0DT`, spinel.c 1859-1860. -/
def D3GDS0S0DT (xmg2tet xfe2tet xmg2oct xfe2oct : ℝ) : ℝ :=
  (1 / 4) * R * (1 / xmg2tet + 1 / xfe2tet + (1 / 2) / xfe2oct + (1 / 2) / xmg2oct)

/-- `D3GDS0S0DP`, spinel.c 1861. -/
def D3GDS0S0DP : ℝ :=
  0

/-- `D3GDS0S1S1`, spinel.c 1862. -/
def D3GDS0S1S1 (t xfe2tet xfe2oct : ℝ) : ℝ :=
  (-(1 / 2)) * R * t * ((-1) / xfe2tet ^ 2 + (1 / 4) / xfe2oct ^ 2)

/-- `D3GDS0S1S2`, spinel.c 1863. -/
def D3GDS0S1S2 (t xfe2tet xfe2oct : ℝ) : ℝ :=
  (-(1 / 2)) * R * t * ((-1) / xfe2tet ^ 2 + (1 / 4) / xfe2oct ^ 2)

/-- `D3GDS0S1DT`, spinel.c 1864. -/
def D3GDS0S1DT (xfe2tet xfe2oct : ℝ) : ℝ :=
  (1 / 2) * R * ((-1) / xfe2tet - (1 / 2) / xfe2oct)

/-- `D3GDS0S1DP`, spinel.c 1865. -/
def D3GDS0S1DP : ℝ :=
  0

/-- `D3GDS0S2S2`, spinel.c 1866. -/
def D3GDS0S2S2 (t xfe2tet xfe2oct : ℝ) : ℝ :=
  (-(1 / 2)) * R * t * ((-1) / xfe2tet ^ 2 + (1 / 4) / xfe2oct ^ 2)

/-- `D3GDS0S2DT`, spinel.c 1867. -/
def D3GDS0S2DT (xfe2tet xfe2oct : ℝ) : ℝ :=
  (1 / 2) * R * ((-1) / xfe2tet - (1 / 2) / xfe2oct)

/-- `D3GDS0S2DP`, spinel.c 1868. -/
def D3GDS0S2DP : ℝ :=
  0

/-- `D3GDS0DT2`, spinel.c 1869. -/
def D3GDS0DT2 : ℝ :=
  0

/-- `D3GDS0DTDP`, spinel.c 1870. -/
def D3GDS0DTDP : ℝ :=
  0

/-- `D3GDS0DP2`, spinel.c 1871. -/
def D3GDS0DP2 : ℝ :=
  0

/-- `D3GDS1S1S1`, spinel.c 1873-1874. -/
def D3GDS1S1S1 (t xfe2tet xal3tet xfe2oct xal3oct : ℝ) : ℝ :=
  (-R) * t * (1 / xfe2tet ^ 2 - 1 / xal3tet ^ 2 + (1 / 4) / xal3oct ^ 2 - (1 / 4) / xfe2oct ^ 2)

/-- `D3GDS1S1S2`, spinel.c 1875. -/
def D3GDS1S1S2 (t xfe2tet xfe2oct : ℝ) : ℝ :=
  (-R) * t * (1 / xfe2tet ^ 2 - (1 / 4) / xfe2oct ^ 2)

/-- `D3GDS1S1DT`, spinel.c 1876. -/
def D3GDS1S1DT (xfe2tet xal3tet xfe2oct xal3oct : ℝ) : ℝ :=
  R * (1 / xfe2tet + 1 / xal3tet + (1 / 2) / xal3oct + (1 / 2) / xfe2oct)

/-- `D3GDS1S1DP`, spinel.c 1877. -/
def D3GDS1S1DP : ℝ :=
  0

/-- `D3GDS1S2S2`, spinel.c 1878. -/
def D3GDS1S2S2 (t xfe2tet xfe2oct : ℝ) : ℝ :=
  (-R) * t * (1 / xfe2tet ^ 2 - (1 / 4) / xfe2oct ^ 2)

/-- `D3GDS1S2DT`, spinel.c 1879. -/
def D3GDS1S2DT (xfe2tet xfe2oct : ℝ) : ℝ :=
  R * (1 / xfe2tet + (1 / 2) / xfe2oct)

/-- `D3GDS1S2DP`, spinel.c 1880. -/
def D3GDS1S2DP : ℝ :=
  0

/-- `D3GDS1DT2`, spinel.c 1881. -/
def D3GDS1DT2 : ℝ :=
  0

/-- `D3GDS1DTDP`, spinel.c 1882. -/
def D3GDS1DTDP : ℝ :=
  0

/-- `D3GDS1DP2`, spinel.c 1883. -/
def D3GDS1DP2 : ℝ :=
  0

/-- `D3GDS2S2S2`, spinel.c 1885-1886. -/
def D3GDS2S2S2 (t xfe2tet xfe3tet xfe2oct xfe3oct : ℝ) : ℝ :=
  (-R) * t * (1 / xfe2tet ^ 2 - 1 / xfe3tet ^ 2 + (1 / 4) / xfe3oct ^ 2 - (1 / 4) / xfe2oct ^ 2)

/-- `D3GDS2S2DT`, spinel.c 1887. -/
def D3GDS2S2DT (xfe2tet xfe3tet xfe2oct xfe3oct : ℝ) : ℝ :=
  R * (1 / xfe2tet + 1 / xfe3tet + (1 / 2) / xfe3oct + (1 / 2) / xfe2oct)

/-- `D3GDS2S2DP`, spinel.c 1888. -/
def D3GDS2S2DP : ℝ :=
  0

/-- `D3GDS2DT2`, spinel.c 1889. -/
def D3GDS2DT2 : ℝ :=
  0

/-- `D3GDS2DTDP`, spinel.c 1890. -/
def D3GDS2DTDP : ℝ :=
  0

/-- `D3GDS2DP2`, spinel.c 1891. -/
def D3GDS2DP2 : ℝ :=
  0

/-- `D3GDT3`, spinel.c 1893. -/
def D3GDT3 : ℝ :=
  0

/-- `D3GDT2DP`, spinel.c 1894. -/
def D3GDT2DP : ℝ :=
  0

/-- `D3GDTDP2`, spinel.c 1895. -/
def D3GDTDP2 : ℝ :=
  0

/-- `D3GDP3`, spinel.c 1896. -/
def D3GDP3 : ℝ :=
  0

/-- `D3GDR0DT2`, spinel.c 1898. -/
def D3GDR0DT2 : ℝ :=
  0

/-- `D3GDR0DTDP`, spinel.c 1899. -/
def D3GDR0DTDP : ℝ :=
  0

/-- `D3GDR0DP2`, spinel.c 1900. -/
def D3GDR0DP2 : ℝ :=
  0

/-- `D3GDR1DT2`, spinel.c 1901. -/
def D3GDR1DT2 : ℝ :=
  0

/-- `D3GDR1DTDP`, spinel.c 1902. -/
def D3GDR1DTDP : ℝ :=
  0

/-- `D3GDR1DP2`, spinel.c 1903. -/
def D3GDR1DP2 : ℝ :=
  0

/-- `D3GDR2DT2`, spinel.c 1904. -/
def D3GDR2DT2 : ℝ :=
  0

/-- `D3GDR2DTDP`, spinel.c 1905. -/
def D3GDR2DTDP : ℝ :=
  0

/-- `D3GDR2DP2`, spinel.c 1906. -/
def D3GDR2DP2 : ℝ :=
  0

/-- `D3GDR3DT2`, spinel.c 1907. -/
def D3GDR3DT2 : ℝ :=
  0

/-- `D3GDR3DTDP`, spinel.c 1908. -/
def D3GDR3DTDP : ℝ :=
  0

/-- `D3GDR3DP2`, spinel.c 1909. -/
def D3GDR3DP2 : ℝ :=
  0

/-- The arrays as the functions of spinel.c fill them (lines 1916-2144), for site fractions `x` and variables `y`. -/
def tables (x : Fin 10 → ℝ) (y : Var 4 3 → ℝ) : Tables 4 3 where
g := G (y (.inl iT)) (y (.inl iP)) (y (.inl (.inl 0))) (y (.inl (.inl 1))) (y (.inl (.inl 2))) (y (.inl
    (.inl 3))) (y (.inr 0)) (y (.inr 1)) (y (.inr 2)) (x 0) (x 1) (x 2) (x 3) (x 4) (x 5) (x 6) (x 7) (x 8) (x
    9)
s := S (y (.inr 2)) (x 0) (x 1) (x 2) (x 3) (x 4) (x 5) (x 6) (x 7) (x 8) (x 9)
dgdr := ![DGDR0 (y (.inl iT)) (y (.inl (.inl 0))) (y (.inl (.inl 1))) (y (.inl (.inl 2))) (y (.inl (.inl
    3))) (y (.inr 0)) (y (.inr 1)) (y (.inr 2)) (x 0) (x 1) (x 4) (x 5), DGDR1 (y (.inl iT)) (y (.inl (.inl 0)))
    (y (.inl (.inl 1))) (y (.inl (.inl 2))) (y (.inl (.inl 3))) (y (.inr 0)) (y (.inr 1)) (y (.inr 2)) (x 1) (x
    2) (x 5) (x 6) (x 8), DGDR2 (y (.inl iT)) (y (.inl iP)) (y (.inl (.inl 0))) (y (.inl (.inl 1))) (y (.inl
    (.inl 2))) (y (.inl (.inl 3))) (y (.inr 0)) (y (.inr 1)) (y (.inr 2)) (x 1) (x 2) (x 6) (x 9), DGDR3 (y
    (.inl iT)) (y (.inl iP)) (y (.inl (.inl 0))) (y (.inl (.inl 1))) (y (.inl (.inl 2))) (y (.inl (.inl 3))) (y
    (.inr 0)) (y (.inr 1)) (y (.inr 2)) (x 2) (x 3) (x 6) (x 7)]
dgds := ![DGDS0 (y (.inl iT)) (y (.inl (.inl 0))) (y (.inl (.inl 1))) (y (.inl (.inl 2))) (y (.inl (.inl
    3))) (y (.inr 0)) (y (.inr 1)) (y (.inr 2)) (x 0) (x 1) (x 4) (x 5), DGDS1 (y (.inl iT)) (y (.inl (.inl 0)))
    (y (.inl (.inl 1))) (y (.inl (.inl 2))) (y (.inl (.inl 3))) (y (.inr 0)) (y (.inr 1)) (y (.inr 2)) (x 1) (x
    2) (x 5) (x 6), DGDS2 (y (.inl iT)) (y (.inl (.inl 0))) (y (.inl (.inl 1))) (y (.inl (.inl 2))) (y (.inl
    (.inl 3))) (y (.inr 0)) (y (.inr 1)) (y (.inr 2)) (x 1) (x 3) (x 5) (x 7)]
dgdt := DGDT (y (.inr 2)) (x 0) (x 1) (x 2) (x 3) (x 4) (x 5) (x 6) (x 7) (x 8) (x 9)
dgdp := DGDP (y (.inl (.inl 2))) (y (.inl (.inl 3)))
d2gdt2 := D2GDT2
d2gdtdp := D2GDTDP
d2gdp2 := D2GDP2
d3gdt3 := D3GDT3
d3gdt2dp := D3GDT2DP
d3gdtdp2 := D3GDTDP2
d3gdp3 := D3GDP3
d2gdr2 := ![![D2GDR0R0 (y (.inl iT)) (x 0) (x 1) (x 4) (x 5), D2GDR0R1 (y (.inl iT)) (x 1) (x 5), D2GDR0R2
    (y (.inl iT)) (x 1), D2GDR0R3], ![D2GDR0R1 (y (.inl iT)) (x 1) (x 5), D2GDR1R1 (y (.inl iT)) (x 1) (x 2) (x
    5) (x 6) (x 8), D2GDR1R2 (y (.inl iT)) (x 1) (x 2) (x 6), D2GDR1R3 (y (.inl iT)) (x 2) (x 6)], ![D2GDR0R2 (y
    (.inl iT)) (x 1), D2GDR1R2 (y (.inl iT)) (x 1) (x 2) (x 6), D2GDR2R2 (y (.inl iT)) (y (.inl iP)) (y (.inl
    (.inl 3))) (x 1) (x 2) (x 6) (x 9), D2GDR2R3 (y (.inl iT)) (y (.inl iP)) (y (.inl (.inl 2))) (y (.inl (.inl
    3))) (x 2) (x 6)], ![D2GDR0R3, D2GDR1R3 (y (.inl iT)) (x 2) (x 6), D2GDR2R3 (y (.inl iT)) (y (.inl iP)) (y
    (.inl (.inl 2))) (y (.inl (.inl 3))) (x 2) (x 6), D2GDR3R3 (y (.inl iT)) (y (.inl iP)) (y (.inl (.inl 2)))
    (x 2) (x 3) (x 6) (x 7)]]
d2gdrds := ![![D2GDR0S0 (y (.inl iT)) (x 0) (x 1) (x 4) (x 5), D2GDR0S1 (y (.inl iT)) (x 1) (x 5), D2GDR0S2
    (y (.inl iT)) (x 1) (x 5)], ![D2GDR1S0 (y (.inl iT)) (x 1) (x 5), D2GDR1S1 (y (.inl iT)) (x 1) (x 2) (x 5)
    (x 6), D2GDR1S2 (y (.inl iT)) (x 1) (x 5)], ![D2GDR2S0 (y (.inl iT)) (x 1), D2GDR2S1 (y (.inl iT)) (x 1) (x
    2) (x 6), D2GDR2S2 (y (.inl iT)) (x 1)], ![D2GDR3S0, D2GDR3S1 (y (.inl iT)) (x 2) (x 6), D2GDR3S2 (y (.inl
    iT)) (x 3) (x 7)]]
d2gdrdt := ![D2GDR0DT (x 0) (x 1) (x 4) (x 5), D2GDR1DT (x 1) (x 2) (x 5) (x 6) (x 8), D2GDR2DT (x 1) (x 2)
    (x 6) (x 9), D2GDR3DT (x 2) (x 3) (x 6) (x 7)]
d2gdrdp := ![D2GDR0DP, D2GDR1DP, D2GDR2DP (y (.inl (.inl 2))) (y (.inl (.inl 3))), D2GDR3DP (y (.inl (.inl
    2))) (y (.inl (.inl 3)))]
d2gds2 := ![![D2GDS0S0 (y (.inl iT)) (x 0) (x 1) (x 4) (x 5), D2GDS0S1 (y (.inl iT)) (x 1) (x 5), D2GDS0S2
    (y (.inl iT)) (x 1) (x 5)], ![D2GDS0S1 (y (.inl iT)) (x 1) (x 5), D2GDS1S1 (y (.inl iT)) (x 1) (x 2) (x 5)
    (x 6), D2GDS1S2 (y (.inl iT)) (x 1) (x 5)], ![D2GDS0S2 (y (.inl iT)) (x 1) (x 5), D2GDS1S2 (y (.inl iT)) (x
    1) (x 5), D2GDS2S2 (y (.inl iT)) (x 1) (x 3) (x 5) (x 7)]]
d2gdsdt := ![D2GDS0DT (x 0) (x 1) (x 4) (x 5), D2GDS1DT (x 1) (x 2) (x 5) (x 6), D2GDS2DT (x 1) (x 3) (x 5)
    (x 7)]
d2gdsdp := ![D2GDS0DP, D2GDS1DP, D2GDS2DP]
d3gdr3 := ![![![D3GDR0R0R0 (y (.inl iT)) (x 0) (x 1) (x 4) (x 5), D3GDR0R0R1 (y (.inl iT)) (x 1) (x 5),
    D3GDR0R0R2 (y (.inl iT)) (x 1), D3GDR0R0R3], ![D3GDR0R0R1 (y (.inl iT)) (x 1) (x 5), D3GDR0R1R1 (y (.inl
    iT)) (x 1) (x 5), D3GDR0R1R2 (y (.inl iT)) (x 1), D3GDR0R1R3], ![D3GDR0R0R2 (y (.inl iT)) (x 1), D3GDR0R1R2
    (y (.inl iT)) (x 1), D3GDR0R2R2 (y (.inl iT)) (x 1), D3GDR0R2R3], ![D3GDR0R0R3, D3GDR0R1R3, D3GDR0R2R3,
    D3GDR0R3R3]], ![![D3GDR0R0R1 (y (.inl iT)) (x 1) (x 5), D3GDR0R1R1 (y (.inl iT)) (x 1) (x 5), D3GDR0R1R2 (y
    (.inl iT)) (x 1), D3GDR0R1R3], ![D3GDR0R1R1 (y (.inl iT)) (x 1) (x 5), D3GDR1R1R1 (y (.inl iT)) (x 1) (x 2)
    (x 5) (x 6) (x 8), D3GDR1R1R2 (y (.inl iT)) (x 1) (x 2) (x 6), D3GDR1R1R3 (y (.inl iT)) (x 2) (x 6)],
    ![D3GDR0R1R2 (y (.inl iT)) (x 1), D3GDR1R1R2 (y (.inl iT)) (x 1) (x 2) (x 6), D3GDR1R2R2 (y (.inl iT)) (x 1)
    (x 2) (x 6), D3GDR1R2R3 (y (.inl iT)) (x 2) (x 6)], ![D3GDR0R1R3, D3GDR1R1R3 (y (.inl iT)) (x 2) (x 6),
    D3GDR1R2R3 (y (.inl iT)) (x 2) (x 6), D3GDR1R3R3 (y (.inl iT)) (x 2) (x 6)]], ![![D3GDR0R0R2 (y (.inl iT))
    (x 1), D3GDR0R1R2 (y (.inl iT)) (x 1), D3GDR0R2R2 (y (.inl iT)) (x 1), D3GDR0R2R3], ![D3GDR0R1R2 (y (.inl
    iT)) (x 1), D3GDR1R1R2 (y (.inl iT)) (x 1) (x 2) (x 6), D3GDR1R2R2 (y (.inl iT)) (x 1) (x 2) (x 6),
    D3GDR1R2R3 (y (.inl iT)) (x 2) (x 6)], ![D3GDR0R2R2 (y (.inl iT)) (x 1), D3GDR1R2R2 (y (.inl iT)) (x 1) (x
    2) (x 6), D3GDR2R2R2 (y (.inl iT)) (x 1) (x 2) (x 6) (x 9), D3GDR2R2R3 (y (.inl iT)) (y (.inl iP)) (x 2) (x
    6)], ![D3GDR0R2R3, D3GDR1R2R3 (y (.inl iT)) (x 2) (x 6), D3GDR2R2R3 (y (.inl iT)) (y (.inl iP)) (x 2) (x 6),
    D3GDR2R3R3 (y (.inl iT)) (y (.inl iP)) (x 2) (x 6)]], ![![D3GDR0R0R3, D3GDR0R1R3, D3GDR0R2R3, D3GDR0R3R3],
    ![D3GDR0R1R3, D3GDR1R1R3 (y (.inl iT)) (x 2) (x 6), D3GDR1R2R3 (y (.inl iT)) (x 2) (x 6), D3GDR1R3R3 (y
    (.inl iT)) (x 2) (x 6)], ![D3GDR0R2R3, D3GDR1R2R3 (y (.inl iT)) (x 2) (x 6), D3GDR2R2R3 (y (.inl iT)) (y
    (.inl iP)) (x 2) (x 6), D3GDR2R3R3 (y (.inl iT)) (y (.inl iP)) (x 2) (x 6)], ![D3GDR0R3R3, D3GDR1R3R3 (y
    (.inl iT)) (x 2) (x 6), D3GDR2R3R3 (y (.inl iT)) (y (.inl iP)) (x 2) (x 6), D3GDR3R3R3 (y (.inl iT)) (x 2)
    (x 3) (x 6) (x 7)]]]
d3gdr2ds := ![![![D3GDR0R0S0 (y (.inl iT)) (x 0) (x 1) (x 4) (x 5), D3GDR0R0S1 (y (.inl iT)) (x 1) (x 5),
    D3GDR0R0S2 (y (.inl iT)) (x 1) (x 5)], ![D3GDR0R1S0 (y (.inl iT)) (x 1) (x 5), D3GDR0R1S1 (y (.inl iT)) (x
    1) (x 5), D3GDR0R1S2 (y (.inl iT)) (x 1) (x 5)], ![D3GDR0R2S0 (y (.inl iT)) (x 1), D3GDR0R2S1 (y (.inl iT))
    (x 1), D3GDR0R2S2 (y (.inl iT)) (x 1)], ![D3GDR0R3S0, D3GDR0R3S1, D3GDR0R3S2]], ![![D3GDR0R1S0 (y (.inl iT))
    (x 1) (x 5), D3GDR0R1S1 (y (.inl iT)) (x 1) (x 5), D3GDR0R1S2 (y (.inl iT)) (x 1) (x 5)], ![D3GDR1R1S0 (y
    (.inl iT)) (x 1) (x 5), D3GDR1R1S1 (y (.inl iT)) (x 1) (x 2) (x 5) (x 6), D3GDR1R1S2 (y (.inl iT)) (x 1) (x
    5)], ![D3GDR1R2S0 (y (.inl iT)) (x 1), D3GDR1R2S1 (y (.inl iT)) (x 1) (x 2) (x 6), D3GDR1R2S2 (y (.inl iT))
    (x 1)], ![D3GDR1R3S0, D3GDR1R3S1 (y (.inl iT)) (x 2) (x 6), D3GDR1R3S2]], ![![D3GDR0R2S0 (y (.inl iT)) (x
    1), D3GDR0R2S1 (y (.inl iT)) (x 1), D3GDR0R2S2 (y (.inl iT)) (x 1)], ![D3GDR1R2S0 (y (.inl iT)) (x 1),
    D3GDR1R2S1 (y (.inl iT)) (x 1) (x 2) (x 6), D3GDR1R2S2 (y (.inl iT)) (x 1)], ![D3GDR2R2S0 (y (.inl iT)) (x
    1), D3GDR2R2S1 (y (.inl iT)) (x 1) (x 2) (x 6), D3GDR2R2S2 (y (.inl iT)) (x 1)], ![D3GDR2R3S0, D3GDR2R3S1 (y
    (.inl iT)) (x 2) (x 6), D3GDR2R3S2]], ![![D3GDR0R3S0, D3GDR0R3S1, D3GDR0R3S2], ![D3GDR1R3S0, D3GDR1R3S1 (y
    (.inl iT)) (x 2) (x 6), D3GDR1R3S2], ![D3GDR2R3S0, D3GDR2R3S1 (y (.inl iT)) (x 2) (x 6), D3GDR2R3S2],
    ![D3GDR3R3S0, D3GDR3R3S1 (y (.inl iT)) (x 2) (x 6), D3GDR3R3S2 (y (.inl iT)) (x 3) (x 7)]]]
d3gdr2dt := ![![D3GDR0R0DT (x 0) (x 1) (x 4) (x 5), D3GDR0R1DT (x 1) (x 5), D3GDR0R2DT (x 1), D3GDR0R3DT],
    ![D3GDR0R1DT (x 1) (x 5), D3GDR1R1DT (x 1) (x 2) (x 5) (x 6) (x 8), D3GDR1R2DT (x 1) (x 2) (x 6), D3GDR1R3DT
    (x 2) (x 6)], ![D3GDR0R2DT (x 1), D3GDR1R2DT (x 1) (x 2) (x 6), D3GDR2R2DT (x 1) (x 2) (x 6) (x 9),
    D3GDR2R3DT (x 2) (x 6)], ![D3GDR0R3DT, D3GDR1R3DT (x 2) (x 6), D3GDR2R3DT (x 2) (x 6), D3GDR3R3DT (x 2) (x
    3) (x 6) (x 7)]]
d3gdr2dp := ![![D3GDR0R0DP, D3GDR0R1DP, D3GDR0R2DP, D3GDR0R3DP], ![D3GDR0R1DP, D3GDR1R1DP, D3GDR1R2DP,
    D3GDR1R3DP], ![D3GDR0R2DP, D3GDR1R2DP, D3GDR2R2DP (y (.inl (.inl 3))), D3GDR2R3DP (y (.inl (.inl 2))) (y
    (.inl (.inl 3)))], ![D3GDR0R3DP, D3GDR1R3DP, D3GDR2R3DP (y (.inl (.inl 2))) (y (.inl (.inl 3))), D3GDR3R3DP
    (y (.inl (.inl 2)))]]
d3gdrds2 := ![![![D3GDR0S0S0 (y (.inl iT)) (x 0) (x 1) (x 4) (x 5), D3GDR0S0S1 (y (.inl iT)) (x 1) (x 5),
    D3GDR0S0S2 (y (.inl iT)) (x 1) (x 5)], ![D3GDR0S0S1 (y (.inl iT)) (x 1) (x 5), D3GDR0S1S1 (y (.inl iT)) (x
    1) (x 5), D3GDR0S1S2 (y (.inl iT)) (x 1) (x 5)], ![D3GDR0S0S2 (y (.inl iT)) (x 1) (x 5), D3GDR0S1S2 (y (.inl
    iT)) (x 1) (x 5), D3GDR0S2S2 (y (.inl iT)) (x 1) (x 5)]], ![![D3GDR1S0S0 (y (.inl iT)) (x 1) (x 5),
    D3GDR1S0S1 (y (.inl iT)) (x 1) (x 5), D3GDR1S0S2 (y (.inl iT)) (x 1) (x 5)], ![D3GDR1S0S1 (y (.inl iT)) (x
    1) (x 5), D3GDR1S1S1 (y (.inl iT)) (x 1) (x 2) (x 5) (x 6), D3GDR1S1S2 (y (.inl iT)) (x 1) (x 5)],
    ![D3GDR1S0S2 (y (.inl iT)) (x 1) (x 5), D3GDR1S1S2 (y (.inl iT)) (x 1) (x 5), D3GDR1S2S2 (y (.inl iT)) (x 1)
    (x 5)]], ![![D3GDR2S0S0 (y (.inl iT)) (x 1), D3GDR2S0S1 (y (.inl iT)) (x 1), D3GDR2S0S2 (y (.inl iT)) (x
    1)], ![D3GDR2S0S1 (y (.inl iT)) (x 1), D3GDR2S1S1 (y (.inl iT)) (x 1) (x 2) (x 6), D3GDR2S1S2 (y (.inl iT))
    (x 1)], ![D3GDR2S0S2 (y (.inl iT)) (x 1), D3GDR2S1S2 (y (.inl iT)) (x 1), D3GDR2S2S2 (y (.inl iT)) (x 1)]],
    ![![D3GDR3S0S0, D3GDR3S0S1, D3GDR3S0S2], ![D3GDR3S0S1, D3GDR3S1S1 (y (.inl iT)) (x 2) (x 6), D3GDR3S1S2],
    ![D3GDR3S0S2, D3GDR3S1S2, D3GDR3S2S2 (y (.inl iT)) (x 3) (x 7)]]]
d3gdrdsdt := ![![D3GDR0S0DT (x 0) (x 1) (x 4) (x 5), D3GDR0S1DT (x 1) (x 5), D3GDR0S2DT (x 1) (x 5)],
    ![D3GDR1S0DT (x 1) (x 5), D3GDR1S1DT (x 1) (x 2) (x 5) (x 6), D3GDR1S2DT (x 1) (x 5)], ![D3GDR2S0DT (x 1),
    D3GDR2S1DT (x 1) (x 2) (x 6), D3GDR2S2DT (x 1)], ![D3GDR3S0DT, D3GDR3S1DT (x 2) (x 6), D3GDR3S2DT (x 3) (x
    7)]]
d3gdrdsdp := ![![D3GDR0S0DP, D3GDR0S1DP, D3GDR0S2DP], ![D3GDR1S0DP, D3GDR1S1DP, D3GDR1S2DP], ![D3GDR2S0DP,
    D3GDR2S1DP, D3GDR2S2DP], ![D3GDR3S0DP, D3GDR3S1DP, D3GDR3S2DP]]
d3gdrdt2 := ![D3GDR0DT2, D3GDR1DT2, D3GDR2DT2, D3GDR3DT2]
d3gdrdtdp := ![D3GDR0DTDP, D3GDR1DTDP, D3GDR2DTDP, D3GDR3DTDP]
d3gdrdp2 := ![D3GDR0DP2, D3GDR1DP2, D3GDR2DP2, D3GDR3DP2]
d3gds3 := ![![![D3GDS0S0S0 (y (.inl iT)) (x 0) (x 1) (x 4) (x 5), D3GDS0S0S1 (y (.inl iT)) (x 1) (x 5),
    D3GDS0S0S2 (y (.inl iT)) (x 1) (x 5)], ![D3GDS0S0S1 (y (.inl iT)) (x 1) (x 5), D3GDS0S1S1 (y (.inl iT)) (x
    1) (x 5), D3GDS0S1S2 (y (.inl iT)) (x 1) (x 5)], ![D3GDS0S0S2 (y (.inl iT)) (x 1) (x 5), D3GDS0S1S2 (y (.inl
    iT)) (x 1) (x 5), D3GDS0S2S2 (y (.inl iT)) (x 1) (x 5)]], ![![D3GDS0S0S1 (y (.inl iT)) (x 1) (x 5),
    D3GDS0S1S1 (y (.inl iT)) (x 1) (x 5), D3GDS0S1S2 (y (.inl iT)) (x 1) (x 5)], ![D3GDS0S1S1 (y (.inl iT)) (x
    1) (x 5), D3GDS1S1S1 (y (.inl iT)) (x 1) (x 2) (x 5) (x 6), D3GDS1S1S2 (y (.inl iT)) (x 1) (x 5)],
    ![D3GDS0S1S2 (y (.inl iT)) (x 1) (x 5), D3GDS1S1S2 (y (.inl iT)) (x 1) (x 5), D3GDS1S2S2 (y (.inl iT)) (x 1)
    (x 5)]], ![![D3GDS0S0S2 (y (.inl iT)) (x 1) (x 5), D3GDS0S1S2 (y (.inl iT)) (x 1) (x 5), D3GDS0S2S2 (y (.inl
    iT)) (x 1) (x 5)], ![D3GDS0S1S2 (y (.inl iT)) (x 1) (x 5), D3GDS1S1S2 (y (.inl iT)) (x 1) (x 5), D3GDS1S2S2
    (y (.inl iT)) (x 1) (x 5)], ![D3GDS0S2S2 (y (.inl iT)) (x 1) (x 5), D3GDS1S2S2 (y (.inl iT)) (x 1) (x 5),
    D3GDS2S2S2 (y (.inl iT)) (x 1) (x 3) (x 5) (x 7)]]]
d3gds2dt := ![![D3GDS0S0DT (x 0) (x 1) (x 4) (x 5), D3GDS0S1DT (x 1) (x 5), D3GDS0S2DT (x 1) (x 5)],
    ![D3GDS0S1DT (x 1) (x 5), D3GDS1S1DT (x 1) (x 2) (x 5) (x 6), D3GDS1S2DT (x 1) (x 5)], ![D3GDS0S2DT (x 1) (x
    5), D3GDS1S2DT (x 1) (x 5), D3GDS2S2DT (x 1) (x 3) (x 5) (x 7)]]
d3gds2dp := ![![D3GDS0S0DP, D3GDS0S1DP, D3GDS0S2DP], ![D3GDS0S1DP, D3GDS1S1DP, D3GDS1S2DP], ![D3GDS0S2DP,
    D3GDS1S2DP, D3GDS2S2DP]]
d3gdsdt2 := ![D3GDS0DT2, D3GDS1DT2, D3GDS2DT2]
d3gdsdtdp := ![D3GDS0DTDP, D3GDS1DTDP, D3GDS2DTDP]
d3gdsdp2 := ![D3GDS0DP2, D3GDS1DP2, D3GDS2DP2]

/-- Site fractions before they are kept inside their bounds, spinel.c 2225-2257. -/
def raw (y : Var 4 3 → ℝ) : Fin 10 → ℝ :=
  ![((y (.inl (.inl 0))) + (y (.inr 0))) / 2, (y (.inl (.inl 2))) - (1 / 2) * (y (.inl (.inl 0))) - (1 / 2) *
    (y (.inr 0)) + (y (.inr 1)) + (y (.inl (.inl 1))) + (y (.inr 2)), 1 - (y (.inl (.inl 1))) - (y (.inl (.inl
    2))) - (y (.inl (.inl 3))) - (y (.inr 1)), (y (.inl (.inl 3))) - (y (.inr 2)), ((y (.inl (.inl 0))) - (y
    (.inr 0))) / 4, (2 - (y (.inl (.inl 0))) + (y (.inr 0)) - 2 * (y (.inr 1)) - 2 * (y (.inl (.inl 1))) - 2 *
    (y (.inr 2))) / 4, (1 - (y (.inl (.inl 1))) - (y (.inl (.inl 2))) - (y (.inl (.inl 3))) + (y (.inr 1))) / 2,
    ((y (.inl (.inl 3))) + (y (.inr 2))) / 2, (y (.inl (.inl 1))), (y (.inl (.inl 2))) / 2]

/-- Bounds applied to the site fractions, spinel.c 2225-2257. -/
def site (y : Var 4 3 → ℝ) : Fin 10 → ℝ :=
  ![keep 0 1 (1 - dblEps) (raw y 0), keep 0 1 (1 - dblEps) (raw y 1), keep 0 1 (1 - dblEps) (raw y 2), keep 0
    1 (1 - dblEps) (raw y 3), keep 0 1 (1 - dblEps) (raw y 4), keep 0 1 (1 - dblEps) (raw y 5), keep 0 1 (1 -
    dblEps) (raw y 6), keep 0 1 (1 - dblEps) (raw y 7), keep 0 1 (1 - dblEps) (raw y 8), keep 0 1 (1 - dblEps)
    (raw y 9)]

/-- The macros of spinel.c at given composition, conditions and ordering state. -/
def macros (y : Var 4 3 → ℝ) : Tables 4 3 := tables (site y) y

/-- Where no bound on the site fractions is active. -/
def Dom (y : Var 4 3 → ℝ) : Prop :=
  (0 < raw y 0 ∧ raw y 0 < 1) ∧ (0 < raw y 1 ∧ raw y 1 < 1) ∧ (0 < raw y 2 ∧ raw y 2 < 1) ∧ (0 < raw y 3 ∧ raw
    y 3 < 1) ∧ (0 < raw y 4 ∧ raw y 4 < 1) ∧ (0 < raw y 5 ∧ raw y 5 < 1) ∧ (0 < raw y 6 ∧ raw y 6 < 1) ∧ (0 <
    raw y 7 ∧ raw y 7 < 1) ∧ (0 < raw y 8 ∧ raw y 8 < 1) ∧ (0 < raw y 9 ∧ raw y 9 < 1)

lemma hl (y u : Var 4 3 → ℝ) (i : Var 4 3) : HasDerivAt (fun v : ℝ => y i + v * u i) (u i) 0 := by
  simpa using ((hasDerivAt_id' (0 : ℝ)).mul_const (u i)).const_add (y i)

lemma raw_line0 (y u : Var 4 3 → ℝ) : HasDerivAt (fun v : ℝ => raw (fun i => y i + v * u i) 0)
    ((1 / 2) * u (.inl (.inl 0)) + (1 / 2) * u (.inr 0)) 0 := by
  have hr0 := hl y u ((.inl (.inl 0)))
  have hr1 := hl y u ((.inl (.inl 1)))
  have hr2 := hl y u ((.inl (.inl 2)))
  have hr3 := hl y u ((.inl (.inl 3)))
  have hs0 := hl y u ((.inr 0))
  have hs1 := hl y u ((.inr 1))
  have hs2 := hl y u ((.inr 2))
  change HasDerivAt (fun v : ℝ => ((y (.inl (.inl 0)) + v * u (.inl (.inl 0))) + (y (.inr 0) + v * u (.inr 0))) / 2) _ 0
  refine HasDerivAt.congr_deriv (by hdo) ?_
  ring

lemma raw_line1 (y u : Var 4 3 → ℝ) : HasDerivAt (fun v : ℝ => raw (fun i => y i + v * u i) 1)
    ((-(1) / 2) * u (.inl (.inl 0)) + 1 * u (.inl (.inl 1)) + 1 * u (.inl (.inl 2)) + (-(1) / 2) * u (.inr 0) + 1 * u (.inr 1) + 1 * u (.inr 2)) 0 := by
  have hr0 := hl y u ((.inl (.inl 0)))
  have hr1 := hl y u ((.inl (.inl 1)))
  have hr2 := hl y u ((.inl (.inl 2)))
  have hr3 := hl y u ((.inl (.inl 3)))
  have hs0 := hl y u ((.inr 0))
  have hs1 := hl y u ((.inr 1))
  have hs2 := hl y u ((.inr 2))
  change HasDerivAt (fun v : ℝ => (y (.inl (.inl 2)) + v * u (.inl (.inl 2))) - (1 / 2) * (y (.inl (.inl 0)) + v * u (.inl (.inl 0))) - (1 /
    2) * (y (.inr 0) + v * u (.inr 0)) + (y (.inr 1) + v * u (.inr 1)) + (y (.inl (.inl 1)) + v * u (.inl (.inl
    1))) + (y (.inr 2) + v * u (.inr 2))) _ 0
  refine HasDerivAt.congr_deriv (by hdo) ?_
  ring

lemma raw_line2 (y u : Var 4 3 → ℝ) : HasDerivAt (fun v : ℝ => raw (fun i => y i + v * u i) 2)
    ((-1) * u (.inl (.inl 1)) + (-1) * u (.inl (.inl 2)) + (-1) * u (.inl (.inl 3)) + (-1) * u (.inr 1)) 0 := by
  have hr0 := hl y u ((.inl (.inl 0)))
  have hr1 := hl y u ((.inl (.inl 1)))
  have hr2 := hl y u ((.inl (.inl 2)))
  have hr3 := hl y u ((.inl (.inl 3)))
  have hs0 := hl y u ((.inr 0))
  have hs1 := hl y u ((.inr 1))
  have hs2 := hl y u ((.inr 2))
  change HasDerivAt (fun v : ℝ => 1 - (y (.inl (.inl 1)) + v * u (.inl (.inl 1))) - (y (.inl (.inl 2)) + v * u (.inl (.inl 2))) - (y (.inl
    (.inl 3)) + v * u (.inl (.inl 3))) - (y (.inr 1) + v * u (.inr 1))) _ 0
  refine HasDerivAt.congr_deriv (by hdo) ?_
  ring

lemma raw_line3 (y u : Var 4 3 → ℝ) : HasDerivAt (fun v : ℝ => raw (fun i => y i + v * u i) 3)
    (1 * u (.inl (.inl 3)) + (-1) * u (.inr 2)) 0 := by
  have hr0 := hl y u ((.inl (.inl 0)))
  have hr1 := hl y u ((.inl (.inl 1)))
  have hr2 := hl y u ((.inl (.inl 2)))
  have hr3 := hl y u ((.inl (.inl 3)))
  have hs0 := hl y u ((.inr 0))
  have hs1 := hl y u ((.inr 1))
  have hs2 := hl y u ((.inr 2))
  change HasDerivAt (fun v : ℝ => (y (.inl (.inl 3)) + v * u (.inl (.inl 3))) - (y (.inr 2) + v * u (.inr 2))) _ 0
  refine HasDerivAt.congr_deriv (by hdo) ?_
  ring

lemma raw_line4 (y u : Var 4 3 → ℝ) : HasDerivAt (fun v : ℝ => raw (fun i => y i + v * u i) 4)
    ((1 / 4) * u (.inl (.inl 0)) + (-(1) / 4) * u (.inr 0)) 0 := by
  have hr0 := hl y u ((.inl (.inl 0)))
  have hr1 := hl y u ((.inl (.inl 1)))
  have hr2 := hl y u ((.inl (.inl 2)))
  have hr3 := hl y u ((.inl (.inl 3)))
  have hs0 := hl y u ((.inr 0))
  have hs1 := hl y u ((.inr 1))
  have hs2 := hl y u ((.inr 2))
  change HasDerivAt (fun v : ℝ => ((y (.inl (.inl 0)) + v * u (.inl (.inl 0))) - (y (.inr 0) + v * u (.inr 0))) / 4) _ 0
  refine HasDerivAt.congr_deriv (by hdo) ?_
  ring

lemma raw_line5 (y u : Var 4 3 → ℝ) : HasDerivAt (fun v : ℝ => raw (fun i => y i + v * u i) 5)
    ((-(1) / 4) * u (.inl (.inl 0)) + (-(1) / 2) * u (.inl (.inl 1)) + (1 / 4) * u (.inr 0) + (-(1) / 2) * u (.inr 1) + (-(1) / 2) * u (.inr 2)) 0 := by
  have hr0 := hl y u ((.inl (.inl 0)))
  have hr1 := hl y u ((.inl (.inl 1)))
  have hr2 := hl y u ((.inl (.inl 2)))
  have hr3 := hl y u ((.inl (.inl 3)))
  have hs0 := hl y u ((.inr 0))
  have hs1 := hl y u ((.inr 1))
  have hs2 := hl y u ((.inr 2))
  change HasDerivAt (fun v : ℝ => (2 - (y (.inl (.inl 0)) + v * u (.inl (.inl 0))) + (y (.inr 0) + v * u (.inr 0)) - 2 * (y (.inr 1) + v * u
    (.inr 1)) - 2 * (y (.inl (.inl 1)) + v * u (.inl (.inl 1))) - 2 * (y (.inr 2) + v * u (.inr 2))) / 4) _ 0
  refine HasDerivAt.congr_deriv (by hdo) ?_
  ring

lemma raw_line6 (y u : Var 4 3 → ℝ) : HasDerivAt (fun v : ℝ => raw (fun i => y i + v * u i) 6)
    ((-(1) / 2) * u (.inl (.inl 1)) + (-(1) / 2) * u (.inl (.inl 2)) + (-(1) / 2) * u (.inl (.inl 3)) + (1 / 2) * u (.inr 1)) 0 := by
  have hr0 := hl y u ((.inl (.inl 0)))
  have hr1 := hl y u ((.inl (.inl 1)))
  have hr2 := hl y u ((.inl (.inl 2)))
  have hr3 := hl y u ((.inl (.inl 3)))
  have hs0 := hl y u ((.inr 0))
  have hs1 := hl y u ((.inr 1))
  have hs2 := hl y u ((.inr 2))
  change HasDerivAt (fun v : ℝ => (1 - (y (.inl (.inl 1)) + v * u (.inl (.inl 1))) - (y (.inl (.inl 2)) + v * u (.inl (.inl 2))) - (y (.inl
    (.inl 3)) + v * u (.inl (.inl 3))) + (y (.inr 1) + v * u (.inr 1))) / 2) _ 0
  refine HasDerivAt.congr_deriv (by hdo) ?_
  ring

lemma raw_line7 (y u : Var 4 3 → ℝ) : HasDerivAt (fun v : ℝ => raw (fun i => y i + v * u i) 7)
    ((1 / 2) * u (.inl (.inl 3)) + (1 / 2) * u (.inr 2)) 0 := by
  have hr0 := hl y u ((.inl (.inl 0)))
  have hr1 := hl y u ((.inl (.inl 1)))
  have hr2 := hl y u ((.inl (.inl 2)))
  have hr3 := hl y u ((.inl (.inl 3)))
  have hs0 := hl y u ((.inr 0))
  have hs1 := hl y u ((.inr 1))
  have hs2 := hl y u ((.inr 2))
  change HasDerivAt (fun v : ℝ => ((y (.inl (.inl 3)) + v * u (.inl (.inl 3))) + (y (.inr 2) + v * u (.inr 2))) / 2) _ 0
  refine HasDerivAt.congr_deriv (by hdo) ?_
  ring

lemma raw_line8 (y u : Var 4 3 → ℝ) : HasDerivAt (fun v : ℝ => raw (fun i => y i + v * u i) 8)
    (1 * u (.inl (.inl 1))) 0 := by
  have hr0 := hl y u ((.inl (.inl 0)))
  have hr1 := hl y u ((.inl (.inl 1)))
  have hr2 := hl y u ((.inl (.inl 2)))
  have hr3 := hl y u ((.inl (.inl 3)))
  have hs0 := hl y u ((.inr 0))
  have hs1 := hl y u ((.inr 1))
  have hs2 := hl y u ((.inr 2))
  change HasDerivAt (fun v : ℝ => (y (.inl (.inl 1)) + v * u (.inl (.inl 1)))) _ 0
  refine HasDerivAt.congr_deriv (by hdo) ?_
  ring

lemma raw_line9 (y u : Var 4 3 → ℝ) : HasDerivAt (fun v : ℝ => raw (fun i => y i + v * u i) 9)
    ((1 / 2) * u (.inl (.inl 2))) 0 := by
  have hr0 := hl y u ((.inl (.inl 0)))
  have hr1 := hl y u ((.inl (.inl 1)))
  have hr2 := hl y u ((.inl (.inl 2)))
  have hr3 := hl y u ((.inl (.inl 3)))
  have hs0 := hl y u ((.inr 0))
  have hs1 := hl y u ((.inr 1))
  have hs2 := hl y u ((.inr 2))
  change HasDerivAt (fun v : ℝ => (y (.inl (.inl 2)) + v * u (.inl (.inl 2))) / 2) _ 0
  refine HasDerivAt.congr_deriv (by hdo) ?_
  ring

lemma raw_diff (k : Fin 10) (y : Var 4 3 → ℝ) : DifferentiableAt ℝ (fun y => raw y k) y := by
  fin_cases k
  · change DifferentiableAt ℝ (fun y : Var 4 3 → ℝ => ((y (.inl (.inl 0))) + (y (.inr 0))) / 2) y; ddo
  · change DifferentiableAt ℝ (fun y : Var 4 3 → ℝ => (y (.inl (.inl 2))) - (1 / 2) * (y (.inl (.inl 0))) - (1 / 2) * (y (.inr 0)) + (y (.inr 1)) + (y (.inl (.inl 1))) + (y (.inr 2))) y; ddo
  · change DifferentiableAt ℝ (fun y : Var 4 3 → ℝ => 1 - (y (.inl (.inl 1))) - (y (.inl (.inl 2))) - (y (.inl (.inl 3))) - (y (.inr 1))) y; ddo
  · change DifferentiableAt ℝ (fun y : Var 4 3 → ℝ => (y (.inl (.inl 3))) - (y (.inr 2))) y; ddo
  · change DifferentiableAt ℝ (fun y : Var 4 3 → ℝ => ((y (.inl (.inl 0))) - (y (.inr 0))) / 4) y; ddo
  · change DifferentiableAt ℝ (fun y : Var 4 3 → ℝ => (2 - (y (.inl (.inl 0))) + (y (.inr 0)) - 2 * (y (.inr 1)) - 2 * (y (.inl (.inl 1))) - 2 * (y (.inr 2))) / 4) y; ddo
  · change DifferentiableAt ℝ (fun y : Var 4 3 → ℝ => (1 - (y (.inl (.inl 1))) - (y (.inl (.inl 2))) - (y (.inl (.inl 3))) + (y (.inr 1))) / 2) y; ddo
  · change DifferentiableAt ℝ (fun y : Var 4 3 → ℝ => ((y (.inl (.inl 3))) + (y (.inr 2))) / 2) y; ddo
  · change DifferentiableAt ℝ (fun y : Var 4 3 → ℝ => (y (.inl (.inl 1)))) y; ddo
  · change DifferentiableAt ℝ (fun y : Var 4 3 → ℝ => (y (.inl (.inl 2))) / 2) y; ddo

lemma pos (y : Var 4 3 → ℝ) (hy : Dom y) :
    0 < raw y 0 ∧ 0 < raw y 1 ∧ 0 < raw y 2 ∧ 0 < raw y 3 ∧ 0 < raw y 4 ∧ 0 < raw y 5 ∧ 0 < raw y 6 ∧ 0 < raw y
    7 ∧ 0 < raw y 8 ∧ 0 < raw y 9 := by
  have he := dblEps_pos
  obtain ⟨h0, h1, h2, h3, h4, h5, h6, h7, h8, h9⟩ := hy
  refine ⟨?_, ?_, ?_, ?_, ?_, ?_, ?_, ?_, ?_, ?_⟩ <;> first | linarith | assumption

lemma c_G {t p r0 r1 r2 r3 s0 s1 s2 xmg2tet xfe2tet xal3tet xfe3tet xmg2oct xfe2oct xal3oct xfe3oct xcr3oct xti4oct :
    ℝ → ℝ} {v dt dp dr0 dr1 dr2 dr3 ds0 ds1 ds2 : ℝ} (ht : HasDerivAt t dt v) (hp : HasDerivAt p dp v) (hr0 :
    HasDerivAt r0 dr0 v) (hr1 : HasDerivAt r1 dr1 v) (hr2 : HasDerivAt r2 dr2 v) (hr3 : HasDerivAt r3 dr3 v)
    (hs0 : HasDerivAt s0 ds0 v) (hs1 : HasDerivAt s1 ds1 v) (hs2 : HasDerivAt s2 ds2 v) (hxmg2tet : HasDerivAt
    xmg2tet ((1 / 2) * dr0 + (1 / 2) * ds0) v) (pxmg2tet : 0 < xmg2tet v) (hxfe2tet : HasDerivAt xfe2tet ((-(1)
    / 2) * dr0 + 1 * dr1 + 1 * dr2 + (-(1) / 2) * ds0 + 1 * ds1 + 1 * ds2) v) (pxfe2tet : 0 < xfe2tet v)
    (hxal3tet : HasDerivAt xal3tet ((-1) * dr1 + (-1) * dr2 + (-1) * dr3 + (-1) * ds1) v) (pxal3tet : 0 <
    xal3tet v) (hxfe3tet : HasDerivAt xfe3tet (1 * dr3 + (-1) * ds2) v) (pxfe3tet : 0 < xfe3tet v) (hxmg2oct :
    HasDerivAt xmg2oct ((1 / 4) * dr0 + (-(1) / 4) * ds0) v) (pxmg2oct : 0 < xmg2oct v) (hxfe2oct : HasDerivAt
    xfe2oct ((-(1) / 4) * dr0 + (-(1) / 2) * dr1 + (1 / 4) * ds0 + (-(1) / 2) * ds1 + (-(1) / 2) * ds2) v)
    (pxfe2oct : 0 < xfe2oct v) (hxal3oct : HasDerivAt xal3oct ((-(1) / 2) * dr1 + (-(1) / 2) * dr2 + (-(1) / 2)
    * dr3 + (1 / 2) * ds1) v) (pxal3oct : 0 < xal3oct v) (hxfe3oct : HasDerivAt xfe3oct ((1 / 2) * dr3 + (1 / 2)
    * ds2) v) (pxfe3oct : 0 < xfe3oct v) (hxcr3oct : HasDerivAt xcr3oct (1 * dr1) v) (pxcr3oct : 0 < xcr3oct v)
    (hxti4oct : HasDerivAt xti4oct ((1 / 2) * dr2) v) (pxti4oct : 0 < xti4oct v) :
    HasDerivAt (fun v => G (t v) (p v) (r0 v) (r1 v) (r2 v) (r3 v) (s0 v) (s1 v) (s2 v) (xmg2tet v) (xfe2tet v) (xal3tet v) (xfe3tet v) (xmg2oct v) (xfe2oct v) (xal3oct v) (xfe3oct v) (xcr3oct v) (xti4oct v))
    (((DGDR0 (t v) (r0 v) (r1 v) (r2 v) (r3 v) (s0 v) (s1 v) (s2 v) (xmg2tet v) (xfe2tet v) (xmg2oct v) (xfe2oct
    v)) * dr0 + (DGDR1 (t v) (r0 v) (r1 v) (r2 v) (r3 v) (s0 v) (s1 v) (s2 v) (xfe2tet v) (xal3tet v) (xfe2oct
    v) (xal3oct v) (xcr3oct v)) * dr1 + (DGDR2 (t v) (p v) (r0 v) (r1 v) (r2 v) (r3 v) (s0 v) (s1 v) (s2 v)
    (xfe2tet v) (xal3tet v) (xal3oct v) (xti4oct v)) * dr2 + (DGDR3 (t v) (p v) (r0 v) (r1 v) (r2 v) (r3 v) (s0
    v) (s1 v) (s2 v) (xal3tet v) (xfe3tet v) (xal3oct v) (xfe3oct v)) * dr3) + ((DGDT (s2 v) (xmg2tet v)
    (xfe2tet v) (xal3tet v) (xfe3tet v) (xmg2oct v) (xfe2oct v) (xal3oct v) (xfe3oct v) (xcr3oct v) (xti4oct v))
    * dt + (DGDP (r2 v) (r3 v)) * dp) + ((DGDS0 (t v) (r0 v) (r1 v) (r2 v) (r3 v) (s0 v) (s1 v) (s2 v) (xmg2tet
    v) (xfe2tet v) (xmg2oct v) (xfe2oct v)) * ds0 + (DGDS1 (t v) (r0 v) (r1 v) (r2 v) (r3 v) (s0 v) (s1 v) (s2
    v) (xfe2tet v) (xal3tet v) (xfe2oct v) (xal3oct v)) * ds1 + (DGDS2 (t v) (r0 v) (r1 v) (r2 v) (r3 v) (s0 v)
    (s1 v) (s2 v) (xfe2tet v) (xfe3tet v) (xfe2oct v) (xfe3oct v)) * ds2)) v := by
  have nxmg2tet := pxmg2tet.ne'
  have nxfe2tet := pxfe2tet.ne'
  have nxal3tet := pxal3tet.ne'
  have nxfe3tet := pxfe3tet.ne'
  have nxmg2oct := pxmg2oct.ne'
  have nxfe2oct := pxfe2oct.ne'
  have nxal3oct := pxal3oct.ne'
  have nxfe3oct := pxfe3oct.ne'
  have nxcr3oct := pxcr3oct.ne'
  have nxti4oct := pxti4oct.ne'
  try simp only [g0, gx2, gx3, gx4, gx5, H, S, G, DGDT, DGDP, DGDR0, DGDR1, DGDR2, DGDR3, DGDS0, DGDS1, DGDS2, zero_mul, mul_zero, add_zero, zero_add, sub_zero]
  refine HasDerivAt.congr_deriv (by hdq) ?_
  try simp only [log2 nxmg2tet nxfe2tet, log2 nxmg2oct nxfe2oct, log2 nxfe2tet nxal3tet, log2 nxti4oct nxal3oct, log2 nxfe3tet nxal3tet, log2 nxfe3oct nxal3oct, log2 nxfe2oct nxmg2oct, log2 nxal3oct nxfe2oct, log2 nxfe2tet nxfe3tet, log2 nxfe3oct nxfe2oct]
  ring

lemma c_DGDR0 {t p r0 r1 r2 r3 s0 s1 s2 xmg2tet xfe2tet xmg2oct xfe2oct : ℝ → ℝ} {v dt dp dr0 dr1 dr2 dr3 ds0 ds1 ds2 : ℝ}
    (ht : HasDerivAt t dt v) (hp : HasDerivAt p dp v) (hr0 : HasDerivAt r0 dr0 v) (hr1 : HasDerivAt r1 dr1 v)
    (hr2 : HasDerivAt r2 dr2 v) (hr3 : HasDerivAt r3 dr3 v) (hs0 : HasDerivAt s0 ds0 v) (hs1 : HasDerivAt s1 ds1
    v) (hs2 : HasDerivAt s2 ds2 v) (hxmg2tet : HasDerivAt xmg2tet ((1 / 2) * dr0 + (1 / 2) * ds0) v) (pxmg2tet :
    0 < xmg2tet v) (hxfe2tet : HasDerivAt xfe2tet ((-(1) / 2) * dr0 + 1 * dr1 + 1 * dr2 + (-(1) / 2) * ds0 + 1 *
    ds1 + 1 * ds2) v) (pxfe2tet : 0 < xfe2tet v) (hxmg2oct : HasDerivAt xmg2oct ((1 / 4) * dr0 + (-(1) / 4) *
    ds0) v) (pxmg2oct : 0 < xmg2oct v) (hxfe2oct : HasDerivAt xfe2oct ((-(1) / 4) * dr0 + (-(1) / 2) * dr1 + (1
    / 4) * ds0 + (-(1) / 2) * ds1 + (-(1) / 2) * ds2) v) (pxfe2oct : 0 < xfe2oct v) :
    HasDerivAt (fun v => DGDR0 (t v) (r0 v) (r1 v) (r2 v) (r3 v) (s0 v) (s1 v) (s2 v) (xmg2tet v) (xfe2tet v) (xmg2oct v) (xfe2oct v))
    (((D2GDR0R0 (t v) (xmg2tet v) (xfe2tet v) (xmg2oct v) (xfe2oct v)) * dr0 + (D2GDR0R1 (t v) (xfe2tet v)
    (xfe2oct v)) * dr1 + (D2GDR0R2 (t v) (xfe2tet v)) * dr2 + D2GDR0R3 * dr3) + ((D2GDR0DT (xmg2tet v) (xfe2tet
    v) (xmg2oct v) (xfe2oct v)) * dt + D2GDR0DP * dp) + ((D2GDR0S0 (t v) (xmg2tet v) (xfe2tet v) (xmg2oct v)
    (xfe2oct v)) * ds0 + (D2GDR0S1 (t v) (xfe2tet v) (xfe2oct v)) * ds1 + (D2GDR0S2 (t v) (xfe2tet v) (xfe2oct
    v)) * ds2)) v := by
  have nxmg2tet := pxmg2tet.ne'
  have nxfe2tet := pxfe2tet.ne'
  have nxmg2oct := pxmg2oct.ne'
  have nxfe2oct := pxfe2oct.ne'
  try simp only [gx2, DGDR0, D2GDR0DT, D2GDR0DP, D2GDR0R0, D2GDR0R1, D2GDR0R2, D2GDR0R3, D2GDR0S0, D2GDR0S1, D2GDR0S2, zero_mul, mul_zero, add_zero, zero_add, sub_zero]
  refine HasDerivAt.congr_deriv (by hdq) ?_
  try simp only [log2 nxmg2tet nxfe2tet, log2 nxmg2oct nxfe2oct]
  ring

lemma c_DGDR1 {t p r0 r1 r2 r3 s0 s1 s2 xfe2tet xal3tet xfe2oct xal3oct xcr3oct : ℝ → ℝ} {v dt dp dr0 dr1 dr2 dr3 ds0 ds1
    ds2 : ℝ} (ht : HasDerivAt t dt v) (hp : HasDerivAt p dp v) (hr0 : HasDerivAt r0 dr0 v) (hr1 : HasDerivAt r1
    dr1 v) (hr2 : HasDerivAt r2 dr2 v) (hr3 : HasDerivAt r3 dr3 v) (hs0 : HasDerivAt s0 ds0 v) (hs1 : HasDerivAt
    s1 ds1 v) (hs2 : HasDerivAt s2 ds2 v) (hxfe2tet : HasDerivAt xfe2tet ((-(1) / 2) * dr0 + 1 * dr1 + 1 * dr2 +
    (-(1) / 2) * ds0 + 1 * ds1 + 1 * ds2) v) (pxfe2tet : 0 < xfe2tet v) (hxal3tet : HasDerivAt xal3tet ((-1) *
    dr1 + (-1) * dr2 + (-1) * dr3 + (-1) * ds1) v) (pxal3tet : 0 < xal3tet v) (hxfe2oct : HasDerivAt xfe2oct
    ((-(1) / 4) * dr0 + (-(1) / 2) * dr1 + (1 / 4) * ds0 + (-(1) / 2) * ds1 + (-(1) / 2) * ds2) v) (pxfe2oct : 0
    < xfe2oct v) (hxal3oct : HasDerivAt xal3oct ((-(1) / 2) * dr1 + (-(1) / 2) * dr2 + (-(1) / 2) * dr3 + (1 /
    2) * ds1) v) (pxal3oct : 0 < xal3oct v) (hxcr3oct : HasDerivAt xcr3oct (1 * dr1) v) (pxcr3oct : 0 < xcr3oct
    v) :
    HasDerivAt (fun v => DGDR1 (t v) (r0 v) (r1 v) (r2 v) (r3 v) (s0 v) (s1 v) (s2 v) (xfe2tet v) (xal3tet v) (xfe2oct v) (xal3oct v) (xcr3oct v))
    (((D2GDR0R1 (t v) (xfe2tet v) (xfe2oct v)) * dr0 + (D2GDR1R1 (t v) (xfe2tet v) (xal3tet v) (xfe2oct v)
    (xal3oct v) (xcr3oct v)) * dr1 + (D2GDR1R2 (t v) (xfe2tet v) (xal3tet v) (xal3oct v)) * dr2 + (D2GDR1R3 (t
    v) (xal3tet v) (xal3oct v)) * dr3) + ((D2GDR1DT (xfe2tet v) (xal3tet v) (xfe2oct v) (xal3oct v) (xcr3oct v))
    * dt + D2GDR1DP * dp) + ((D2GDR1S0 (t v) (xfe2tet v) (xfe2oct v)) * ds0 + (D2GDR1S1 (t v) (xfe2tet v)
    (xal3tet v) (xfe2oct v) (xal3oct v)) * ds1 + (D2GDR1S2 (t v) (xfe2tet v) (xfe2oct v)) * ds2)) v := by
  have nxfe2tet := pxfe2tet.ne'
  have nxal3tet := pxal3tet.ne'
  have nxfe2oct := pxfe2oct.ne'
  have nxal3oct := pxal3oct.ne'
  have nxcr3oct := pxcr3oct.ne'
  try simp only [gx3, DGDR1, D2GDR1DT, D2GDR1DP, D2GDR0R1, D2GDR1R1, D2GDR1R2, D2GDR1R3, D2GDR1S0, D2GDR1S1, D2GDR1S2, zero_mul, mul_zero, add_zero, zero_add, sub_zero]
  refine HasDerivAt.congr_deriv (by hdq) ?_
  try simp only [log2 nxfe2tet nxal3tet]
  ring

lemma c_DGDR2 {t p r0 r1 r2 r3 s0 s1 s2 xfe2tet xal3tet xal3oct xti4oct : ℝ → ℝ} {v dt dp dr0 dr1 dr2 dr3 ds0 ds1 ds2 : ℝ}
    (ht : HasDerivAt t dt v) (hp : HasDerivAt p dp v) (hr0 : HasDerivAt r0 dr0 v) (hr1 : HasDerivAt r1 dr1 v)
    (hr2 : HasDerivAt r2 dr2 v) (hr3 : HasDerivAt r3 dr3 v) (hs0 : HasDerivAt s0 ds0 v) (hs1 : HasDerivAt s1 ds1
    v) (hs2 : HasDerivAt s2 ds2 v) (hxfe2tet : HasDerivAt xfe2tet ((-(1) / 2) * dr0 + 1 * dr1 + 1 * dr2 + (-(1)
    / 2) * ds0 + 1 * ds1 + 1 * ds2) v) (pxfe2tet : 0 < xfe2tet v) (hxal3tet : HasDerivAt xal3tet ((-1) * dr1 +
    (-1) * dr2 + (-1) * dr3 + (-1) * ds1) v) (pxal3tet : 0 < xal3tet v) (hxal3oct : HasDerivAt xal3oct ((-(1) /
    2) * dr1 + (-(1) / 2) * dr2 + (-(1) / 2) * dr3 + (1 / 2) * ds1) v) (pxal3oct : 0 < xal3oct v) (hxti4oct :
    HasDerivAt xti4oct ((1 / 2) * dr2) v) (pxti4oct : 0 < xti4oct v) :
    HasDerivAt (fun v => DGDR2 (t v) (p v) (r0 v) (r1 v) (r2 v) (r3 v) (s0 v) (s1 v) (s2 v) (xfe2tet v) (xal3tet v) (xal3oct v) (xti4oct v))
    (((D2GDR0R2 (t v) (xfe2tet v)) * dr0 + (D2GDR1R2 (t v) (xfe2tet v) (xal3tet v) (xal3oct v)) * dr1 + (D2GDR2R2
    (t v) (p v) (r3 v) (xfe2tet v) (xal3tet v) (xal3oct v) (xti4oct v)) * dr2 + (D2GDR2R3 (t v) (p v) (r2 v) (r3
    v) (xal3tet v) (xal3oct v)) * dr3) + ((D2GDR2DT (xfe2tet v) (xal3tet v) (xal3oct v) (xti4oct v)) * dt +
    (D2GDR2DP (r2 v) (r3 v)) * dp) + ((D2GDR2S0 (t v) (xfe2tet v)) * ds0 + (D2GDR2S1 (t v) (xfe2tet v) (xal3tet
    v) (xal3oct v)) * ds1 + (D2GDR2S2 (t v) (xfe2tet v)) * ds2)) v := by
  have nxfe2tet := pxfe2tet.ne'
  have nxal3tet := pxal3tet.ne'
  have nxal3oct := pxal3oct.ne'
  have nxti4oct := pxti4oct.ne'
  try simp only [gx4, DGDR2, D2GDR2DT, D2GDR2DP, D2GDR0R2, D2GDR1R2, D2GDR2R2, D2GDR2R3, D2GDR2S0, D2GDR2S1, D2GDR2S2, zero_mul, mul_zero, add_zero, zero_add, sub_zero]
  refine HasDerivAt.congr_deriv (by hdq) ?_
  try simp only [log2 nxfe2tet nxal3tet, log2 nxti4oct nxal3oct]
  ring

lemma c_DGDR3 {t p r0 r1 r2 r3 s0 s1 s2 xal3tet xfe3tet xal3oct xfe3oct : ℝ → ℝ} {v dt dp dr0 dr1 dr2 dr3 ds0 ds1 ds2 : ℝ}
    (ht : HasDerivAt t dt v) (hp : HasDerivAt p dp v) (hr0 : HasDerivAt r0 dr0 v) (hr1 : HasDerivAt r1 dr1 v)
    (hr2 : HasDerivAt r2 dr2 v) (hr3 : HasDerivAt r3 dr3 v) (hs0 : HasDerivAt s0 ds0 v) (hs1 : HasDerivAt s1 ds1
    v) (hs2 : HasDerivAt s2 ds2 v) (hxal3tet : HasDerivAt xal3tet ((-1) * dr1 + (-1) * dr2 + (-1) * dr3 + (-1) *
    ds1) v) (pxal3tet : 0 < xal3tet v) (hxfe3tet : HasDerivAt xfe3tet (1 * dr3 + (-1) * ds2) v) (pxfe3tet : 0 <
    xfe3tet v) (hxal3oct : HasDerivAt xal3oct ((-(1) / 2) * dr1 + (-(1) / 2) * dr2 + (-(1) / 2) * dr3 + (1 / 2)
    * ds1) v) (pxal3oct : 0 < xal3oct v) (hxfe3oct : HasDerivAt xfe3oct ((1 / 2) * dr3 + (1 / 2) * ds2) v)
    (pxfe3oct : 0 < xfe3oct v) :
    HasDerivAt (fun v => DGDR3 (t v) (p v) (r0 v) (r1 v) (r2 v) (r3 v) (s0 v) (s1 v) (s2 v) (xal3tet v) (xfe3tet v) (xal3oct v) (xfe3oct v))
    ((D2GDR0R3 * dr0 + (D2GDR1R3 (t v) (xal3tet v) (xal3oct v)) * dr1 + (D2GDR2R3 (t v) (p v) (r2 v) (r3 v)
    (xal3tet v) (xal3oct v)) * dr2 + (D2GDR3R3 (t v) (p v) (r2 v) (xal3tet v) (xfe3tet v) (xal3oct v) (xfe3oct
    v)) * dr3) + ((D2GDR3DT (xal3tet v) (xfe3tet v) (xal3oct v) (xfe3oct v)) * dt + (D2GDR3DP (r2 v) (r3 v)) *
    dp) + (D2GDR3S0 * ds0 + (D2GDR3S1 (t v) (xal3tet v) (xal3oct v)) * ds1 + (D2GDR3S2 (t v) (xfe3tet v)
    (xfe3oct v)) * ds2)) v := by
  have nxal3tet := pxal3tet.ne'
  have nxfe3tet := pxfe3tet.ne'
  have nxal3oct := pxal3oct.ne'
  have nxfe3oct := pxfe3oct.ne'
  try simp only [gx5, DGDR3, D2GDR3DT, D2GDR3DP, D2GDR0R3, D2GDR1R3, D2GDR2R3, D2GDR3R3, D2GDR3S0, D2GDR3S1, D2GDR3S2, zero_mul, mul_zero, add_zero, zero_add, sub_zero]
  refine HasDerivAt.congr_deriv (by hdq) ?_
  try simp only [log2 nxfe3tet nxal3tet, log2 nxfe3oct nxal3oct]
  ring

lemma c_DGDS0 {t p r0 r1 r2 r3 s0 s1 s2 xmg2tet xfe2tet xmg2oct xfe2oct : ℝ → ℝ} {v dt dp dr0 dr1 dr2 dr3 ds0 ds1 ds2 : ℝ}
    (ht : HasDerivAt t dt v) (hp : HasDerivAt p dp v) (hr0 : HasDerivAt r0 dr0 v) (hr1 : HasDerivAt r1 dr1 v)
    (hr2 : HasDerivAt r2 dr2 v) (hr3 : HasDerivAt r3 dr3 v) (hs0 : HasDerivAt s0 ds0 v) (hs1 : HasDerivAt s1 ds1
    v) (hs2 : HasDerivAt s2 ds2 v) (hxmg2tet : HasDerivAt xmg2tet ((1 / 2) * dr0 + (1 / 2) * ds0) v) (pxmg2tet :
    0 < xmg2tet v) (hxfe2tet : HasDerivAt xfe2tet ((-(1) / 2) * dr0 + 1 * dr1 + 1 * dr2 + (-(1) / 2) * ds0 + 1 *
    ds1 + 1 * ds2) v) (pxfe2tet : 0 < xfe2tet v) (hxmg2oct : HasDerivAt xmg2oct ((1 / 4) * dr0 + (-(1) / 4) *
    ds0) v) (pxmg2oct : 0 < xmg2oct v) (hxfe2oct : HasDerivAt xfe2oct ((-(1) / 4) * dr0 + (-(1) / 2) * dr1 + (1
    / 4) * ds0 + (-(1) / 2) * ds1 + (-(1) / 2) * ds2) v) (pxfe2oct : 0 < xfe2oct v) :
    HasDerivAt (fun v => DGDS0 (t v) (r0 v) (r1 v) (r2 v) (r3 v) (s0 v) (s1 v) (s2 v) (xmg2tet v) (xfe2tet v) (xmg2oct v) (xfe2oct v))
    (((D2GDR0S0 (t v) (xmg2tet v) (xfe2tet v) (xmg2oct v) (xfe2oct v)) * dr0 + (D2GDR1S0 (t v) (xfe2tet v)
    (xfe2oct v)) * dr1 + (D2GDR2S0 (t v) (xfe2tet v)) * dr2 + D2GDR3S0 * dr3) + ((D2GDS0DT (xmg2tet v) (xfe2tet
    v) (xmg2oct v) (xfe2oct v)) * dt + D2GDS0DP * dp) + ((D2GDS0S0 (t v) (xmg2tet v) (xfe2tet v) (xmg2oct v)
    (xfe2oct v)) * ds0 + (D2GDS0S1 (t v) (xfe2tet v) (xfe2oct v)) * ds1 + (D2GDS0S2 (t v) (xfe2tet v) (xfe2oct
    v)) * ds2)) v := by
  have nxmg2tet := pxmg2tet.ne'
  have nxfe2tet := pxfe2tet.ne'
  have nxmg2oct := pxmg2oct.ne'
  have nxfe2oct := pxfe2oct.ne'
  try simp only [DGDS0, D2GDS0DT, D2GDS0DP, D2GDR0S0, D2GDR1S0, D2GDR2S0, D2GDR3S0, D2GDS0S0, D2GDS0S1, D2GDS0S2, zero_mul, mul_zero, add_zero, zero_add, sub_zero]
  refine HasDerivAt.congr_deriv (by hdq) ?_
  try simp only [log2 nxmg2tet nxfe2tet, log2 nxfe2oct nxmg2oct]
  ring

lemma c_DGDS1 {t p r0 r1 r2 r3 s0 s1 s2 xfe2tet xal3tet xfe2oct xal3oct : ℝ → ℝ} {v dt dp dr0 dr1 dr2 dr3 ds0 ds1 ds2 : ℝ}
    (ht : HasDerivAt t dt v) (hp : HasDerivAt p dp v) (hr0 : HasDerivAt r0 dr0 v) (hr1 : HasDerivAt r1 dr1 v)
    (hr2 : HasDerivAt r2 dr2 v) (hr3 : HasDerivAt r3 dr3 v) (hs0 : HasDerivAt s0 ds0 v) (hs1 : HasDerivAt s1 ds1
    v) (hs2 : HasDerivAt s2 ds2 v) (hxfe2tet : HasDerivAt xfe2tet ((-(1) / 2) * dr0 + 1 * dr1 + 1 * dr2 + (-(1)
    / 2) * ds0 + 1 * ds1 + 1 * ds2) v) (pxfe2tet : 0 < xfe2tet v) (hxal3tet : HasDerivAt xal3tet ((-1) * dr1 +
    (-1) * dr2 + (-1) * dr3 + (-1) * ds1) v) (pxal3tet : 0 < xal3tet v) (hxfe2oct : HasDerivAt xfe2oct ((-(1) /
    4) * dr0 + (-(1) / 2) * dr1 + (1 / 4) * ds0 + (-(1) / 2) * ds1 + (-(1) / 2) * ds2) v) (pxfe2oct : 0 <
    xfe2oct v) (hxal3oct : HasDerivAt xal3oct ((-(1) / 2) * dr1 + (-(1) / 2) * dr2 + (-(1) / 2) * dr3 + (1 / 2)
    * ds1) v) (pxal3oct : 0 < xal3oct v) :
    HasDerivAt (fun v => DGDS1 (t v) (r0 v) (r1 v) (r2 v) (r3 v) (s0 v) (s1 v) (s2 v) (xfe2tet v) (xal3tet v) (xfe2oct v) (xal3oct v))
    (((D2GDR0S1 (t v) (xfe2tet v) (xfe2oct v)) * dr0 + (D2GDR1S1 (t v) (xfe2tet v) (xal3tet v) (xfe2oct v)
    (xal3oct v)) * dr1 + (D2GDR2S1 (t v) (xfe2tet v) (xal3tet v) (xal3oct v)) * dr2 + (D2GDR3S1 (t v) (xal3tet
    v) (xal3oct v)) * dr3) + ((D2GDS1DT (xfe2tet v) (xal3tet v) (xfe2oct v) (xal3oct v)) * dt + D2GDS1DP * dp) +
    ((D2GDS0S1 (t v) (xfe2tet v) (xfe2oct v)) * ds0 + (D2GDS1S1 (t v) (xfe2tet v) (xal3tet v) (xfe2oct v)
    (xal3oct v)) * ds1 + (D2GDS1S2 (t v) (xfe2tet v) (xfe2oct v)) * ds2)) v := by
  have nxfe2tet := pxfe2tet.ne'
  have nxal3tet := pxal3tet.ne'
  have nxfe2oct := pxfe2oct.ne'
  have nxal3oct := pxal3oct.ne'
  try simp only [DGDS1, D2GDS1DT, D2GDS1DP, D2GDR0S1, D2GDR1S1, D2GDR2S1, D2GDR3S1, D2GDS0S1, D2GDS1S1, D2GDS1S2, zero_mul, mul_zero, add_zero, zero_add, sub_zero]
  refine HasDerivAt.congr_deriv (by hdq) ?_
  try simp only [log2 nxfe2tet nxal3tet, log2 nxal3oct nxfe2oct]
  ring

lemma c_DGDS2 {t p r0 r1 r2 r3 s0 s1 s2 xfe2tet xfe3tet xfe2oct xfe3oct : ℝ → ℝ} {v dt dp dr0 dr1 dr2 dr3 ds0 ds1 ds2 : ℝ}
    (ht : HasDerivAt t dt v) (hp : HasDerivAt p dp v) (hr0 : HasDerivAt r0 dr0 v) (hr1 : HasDerivAt r1 dr1 v)
    (hr2 : HasDerivAt r2 dr2 v) (hr3 : HasDerivAt r3 dr3 v) (hs0 : HasDerivAt s0 ds0 v) (hs1 : HasDerivAt s1 ds1
    v) (hs2 : HasDerivAt s2 ds2 v) (hxfe2tet : HasDerivAt xfe2tet ((-(1) / 2) * dr0 + 1 * dr1 + 1 * dr2 + (-(1)
    / 2) * ds0 + 1 * ds1 + 1 * ds2) v) (pxfe2tet : 0 < xfe2tet v) (hxfe3tet : HasDerivAt xfe3tet (1 * dr3 + (-1)
    * ds2) v) (pxfe3tet : 0 < xfe3tet v) (hxfe2oct : HasDerivAt xfe2oct ((-(1) / 4) * dr0 + (-(1) / 2) * dr1 +
    (1 / 4) * ds0 + (-(1) / 2) * ds1 + (-(1) / 2) * ds2) v) (pxfe2oct : 0 < xfe2oct v) (hxfe3oct : HasDerivAt
    xfe3oct ((1 / 2) * dr3 + (1 / 2) * ds2) v) (pxfe3oct : 0 < xfe3oct v) :
    HasDerivAt (fun v => DGDS2 (t v) (r0 v) (r1 v) (r2 v) (r3 v) (s0 v) (s1 v) (s2 v) (xfe2tet v) (xfe3tet v) (xfe2oct v) (xfe3oct v))
    (((D2GDR0S2 (t v) (xfe2tet v) (xfe2oct v)) * dr0 + (D2GDR1S2 (t v) (xfe2tet v) (xfe2oct v)) * dr1 + (D2GDR2S2
    (t v) (xfe2tet v)) * dr2 + (D2GDR3S2 (t v) (xfe3tet v) (xfe3oct v)) * dr3) + ((D2GDS2DT (xfe2tet v) (xfe3tet
    v) (xfe2oct v) (xfe3oct v)) * dt + D2GDS2DP * dp) + ((D2GDS0S2 (t v) (xfe2tet v) (xfe2oct v)) * ds0 +
    (D2GDS1S2 (t v) (xfe2tet v) (xfe2oct v)) * ds1 + (D2GDS2S2 (t v) (xfe2tet v) (xfe3tet v) (xfe2oct v)
    (xfe3oct v)) * ds2)) v := by
  have nxfe2tet := pxfe2tet.ne'
  have nxfe3tet := pxfe3tet.ne'
  have nxfe2oct := pxfe2oct.ne'
  have nxfe3oct := pxfe3oct.ne'
  try simp only [DGDS2, D2GDS2DT, D2GDS2DP, D2GDR0S2, D2GDR1S2, D2GDR2S2, D2GDR3S2, D2GDS0S2, D2GDS1S2, D2GDS2S2, zero_mul, mul_zero, add_zero, zero_add, sub_zero]
  refine HasDerivAt.congr_deriv (by hdq) ?_
  try simp only [log2 nxfe2tet nxfe3tet, log2 nxfe3oct nxfe2oct]
  ring

lemma c_DGDT {t p r0 r1 r2 r3 s0 s1 s2 xmg2tet xfe2tet xal3tet xfe3tet xmg2oct xfe2oct xal3oct xfe3oct xcr3oct xti4oct :
    ℝ → ℝ} {v dt dp dr0 dr1 dr2 dr3 ds0 ds1 ds2 : ℝ} (ht : HasDerivAt t dt v) (hp : HasDerivAt p dp v) (hr0 :
    HasDerivAt r0 dr0 v) (hr1 : HasDerivAt r1 dr1 v) (hr2 : HasDerivAt r2 dr2 v) (hr3 : HasDerivAt r3 dr3 v)
    (hs0 : HasDerivAt s0 ds0 v) (hs1 : HasDerivAt s1 ds1 v) (hs2 : HasDerivAt s2 ds2 v) (hxmg2tet : HasDerivAt
    xmg2tet ((1 / 2) * dr0 + (1 / 2) * ds0) v) (pxmg2tet : 0 < xmg2tet v) (hxfe2tet : HasDerivAt xfe2tet ((-(1)
    / 2) * dr0 + 1 * dr1 + 1 * dr2 + (-(1) / 2) * ds0 + 1 * ds1 + 1 * ds2) v) (pxfe2tet : 0 < xfe2tet v)
    (hxal3tet : HasDerivAt xal3tet ((-1) * dr1 + (-1) * dr2 + (-1) * dr3 + (-1) * ds1) v) (pxal3tet : 0 <
    xal3tet v) (hxfe3tet : HasDerivAt xfe3tet (1 * dr3 + (-1) * ds2) v) (pxfe3tet : 0 < xfe3tet v) (hxmg2oct :
    HasDerivAt xmg2oct ((1 / 4) * dr0 + (-(1) / 4) * ds0) v) (pxmg2oct : 0 < xmg2oct v) (hxfe2oct : HasDerivAt
    xfe2oct ((-(1) / 4) * dr0 + (-(1) / 2) * dr1 + (1 / 4) * ds0 + (-(1) / 2) * ds1 + (-(1) / 2) * ds2) v)
    (pxfe2oct : 0 < xfe2oct v) (hxal3oct : HasDerivAt xal3oct ((-(1) / 2) * dr1 + (-(1) / 2) * dr2 + (-(1) / 2)
    * dr3 + (1 / 2) * ds1) v) (pxal3oct : 0 < xal3oct v) (hxfe3oct : HasDerivAt xfe3oct ((1 / 2) * dr3 + (1 / 2)
    * ds2) v) (pxfe3oct : 0 < xfe3oct v) (hxcr3oct : HasDerivAt xcr3oct (1 * dr1) v) (pxcr3oct : 0 < xcr3oct v)
    (hxti4oct : HasDerivAt xti4oct ((1 / 2) * dr2) v) (pxti4oct : 0 < xti4oct v) :
    HasDerivAt (fun v => DGDT (s2 v) (xmg2tet v) (xfe2tet v) (xal3tet v) (xfe3tet v) (xmg2oct v) (xfe2oct v) (xal3oct v) (xfe3oct v) (xcr3oct v) (xti4oct v))
    (((D2GDR0DT (xmg2tet v) (xfe2tet v) (xmg2oct v) (xfe2oct v)) * dr0 + (D2GDR1DT (xfe2tet v) (xal3tet v)
    (xfe2oct v) (xal3oct v) (xcr3oct v)) * dr1 + (D2GDR2DT (xfe2tet v) (xal3tet v) (xal3oct v) (xti4oct v)) *
    dr2 + (D2GDR3DT (xal3tet v) (xfe3tet v) (xal3oct v) (xfe3oct v)) * dr3) + (D2GDT2 * dt + D2GDTDP * dp) +
    ((D2GDS0DT (xmg2tet v) (xfe2tet v) (xmg2oct v) (xfe2oct v)) * ds0 + (D2GDS1DT (xfe2tet v) (xal3tet v)
    (xfe2oct v) (xal3oct v)) * ds1 + (D2GDS2DT (xfe2tet v) (xfe3tet v) (xfe2oct v) (xfe3oct v)) * ds2)) v := by
  have nxmg2tet := pxmg2tet.ne'
  have nxfe2tet := pxfe2tet.ne'
  have nxal3tet := pxal3tet.ne'
  have nxfe3tet := pxfe3tet.ne'
  have nxmg2oct := pxmg2oct.ne'
  have nxfe2oct := pxfe2oct.ne'
  have nxal3oct := pxal3oct.ne'
  have nxfe3oct := pxfe3oct.ne'
  have nxcr3oct := pxcr3oct.ne'
  have nxti4oct := pxti4oct.ne'
  try simp only [S, DGDT, D2GDT2, D2GDTDP, D2GDR0DT, D2GDR1DT, D2GDR2DT, D2GDR3DT, D2GDS0DT, D2GDS1DT, D2GDS2DT, zero_mul, mul_zero, add_zero, zero_add, sub_zero]
  refine HasDerivAt.congr_deriv (by hdq) ?_
  try simp only [log2 nxfe2tet nxal3tet, log2 nxti4oct nxal3oct, log2 nxfe3tet nxal3tet, log2 nxfe3oct nxal3oct, log2 nxmg2tet nxfe2tet, log2 nxfe2oct nxmg2oct, log2 nxal3oct nxfe2oct, log2 nxfe2tet nxfe3tet, log2 nxfe3oct nxfe2oct]
  ring

lemma c_DGDP {t p r0 r1 r2 r3 s0 s1 s2 : ℝ → ℝ} {v dt dp dr0 dr1 dr2 dr3 ds0 ds1 ds2 : ℝ} (ht : HasDerivAt t dt v) (hp :
    HasDerivAt p dp v) (hr0 : HasDerivAt r0 dr0 v) (hr1 : HasDerivAt r1 dr1 v) (hr2 : HasDerivAt r2 dr2 v) (hr3
    : HasDerivAt r3 dr3 v) (hs0 : HasDerivAt s0 ds0 v) (hs1 : HasDerivAt s1 ds1 v) (hs2 : HasDerivAt s2 ds2 v) :
    HasDerivAt (fun v => DGDP (r2 v) (r3 v))
    ((D2GDR0DP * dr0 + D2GDR1DP * dr1 + (D2GDR2DP (r2 v) (r3 v)) * dr2 + (D2GDR3DP (r2 v) (r3 v)) * dr3) +
    (D2GDTDP * dt + D2GDP2 * dp) + (D2GDS0DP * ds0 + D2GDS1DP * ds1 + D2GDS2DP * ds2)) v := by
  try simp only [DGDP, D2GDTDP, D2GDP2, D2GDR0DP, D2GDR1DP, D2GDR2DP, D2GDR3DP, D2GDS0DP, D2GDS1DP, D2GDS2DP, zero_mul, mul_zero, add_zero, zero_add, sub_zero]
  refine HasDerivAt.congr_deriv (by hdq) ?_
  ring

lemma c_D2GDR0R0 {t p r0 r1 r2 r3 s0 s1 s2 xmg2tet xfe2tet xmg2oct xfe2oct : ℝ → ℝ} {v dt dp dr0 dr1 dr2 dr3 ds0 ds1 ds2 : ℝ}
    (ht : HasDerivAt t dt v) (hp : HasDerivAt p dp v) (hr0 : HasDerivAt r0 dr0 v) (hr1 : HasDerivAt r1 dr1 v)
    (hr2 : HasDerivAt r2 dr2 v) (hr3 : HasDerivAt r3 dr3 v) (hs0 : HasDerivAt s0 ds0 v) (hs1 : HasDerivAt s1 ds1
    v) (hs2 : HasDerivAt s2 ds2 v) (hxmg2tet : HasDerivAt xmg2tet ((1 / 2) * dr0 + (1 / 2) * ds0) v) (pxmg2tet :
    0 < xmg2tet v) (hxfe2tet : HasDerivAt xfe2tet ((-(1) / 2) * dr0 + 1 * dr1 + 1 * dr2 + (-(1) / 2) * ds0 + 1 *
    ds1 + 1 * ds2) v) (pxfe2tet : 0 < xfe2tet v) (hxmg2oct : HasDerivAt xmg2oct ((1 / 4) * dr0 + (-(1) / 4) *
    ds0) v) (pxmg2oct : 0 < xmg2oct v) (hxfe2oct : HasDerivAt xfe2oct ((-(1) / 4) * dr0 + (-(1) / 2) * dr1 + (1
    / 4) * ds0 + (-(1) / 2) * ds1 + (-(1) / 2) * ds2) v) (pxfe2oct : 0 < xfe2oct v) :
    HasDerivAt (fun v => D2GDR0R0 (t v) (xmg2tet v) (xfe2tet v) (xmg2oct v) (xfe2oct v))
    (((D3GDR0R0R0 (t v) (xmg2tet v) (xfe2tet v) (xmg2oct v) (xfe2oct v)) * dr0 + (D3GDR0R0R1 (t v) (xfe2tet v)
    (xfe2oct v)) * dr1 + (D3GDR0R0R2 (t v) (xfe2tet v)) * dr2 + D3GDR0R0R3 * dr3) + ((D3GDR0R0DT (xmg2tet v)
    (xfe2tet v) (xmg2oct v) (xfe2oct v)) * dt + D3GDR0R0DP * dp) + ((D3GDR0R0S0 (t v) (xmg2tet v) (xfe2tet v)
    (xmg2oct v) (xfe2oct v)) * ds0 + (D3GDR0R0S1 (t v) (xfe2tet v) (xfe2oct v)) * ds1 + (D3GDR0R0S2 (t v)
    (xfe2tet v) (xfe2oct v)) * ds2)) v := by
  have nxmg2tet := pxmg2tet.ne'
  have nxfe2tet := pxfe2tet.ne'
  have nxmg2oct := pxmg2oct.ne'
  have nxfe2oct := pxfe2oct.ne'
  try simp only [D2GDR0R0, D3GDR0R0DT, D3GDR0R0DP, D3GDR0R0R0, D3GDR0R0R1, D3GDR0R0R2, D3GDR0R0R3, D3GDR0R0S0, D3GDR0R0S1, D3GDR0R0S2, zero_mul, mul_zero, add_zero, zero_add, sub_zero]
  refine HasDerivAt.congr_deriv (by hdq) ?_
  ring

lemma c_D2GDR0R1 {t p r0 r1 r2 r3 s0 s1 s2 xfe2tet xfe2oct : ℝ → ℝ} {v dt dp dr0 dr1 dr2 dr3 ds0 ds1 ds2 : ℝ} (ht :
    HasDerivAt t dt v) (hp : HasDerivAt p dp v) (hr0 : HasDerivAt r0 dr0 v) (hr1 : HasDerivAt r1 dr1 v) (hr2 :
    HasDerivAt r2 dr2 v) (hr3 : HasDerivAt r3 dr3 v) (hs0 : HasDerivAt s0 ds0 v) (hs1 : HasDerivAt s1 ds1 v)
    (hs2 : HasDerivAt s2 ds2 v) (hxfe2tet : HasDerivAt xfe2tet ((-(1) / 2) * dr0 + 1 * dr1 + 1 * dr2 + (-(1) /
    2) * ds0 + 1 * ds1 + 1 * ds2) v) (pxfe2tet : 0 < xfe2tet v) (hxfe2oct : HasDerivAt xfe2oct ((-(1) / 4) * dr0
    + (-(1) / 2) * dr1 + (1 / 4) * ds0 + (-(1) / 2) * ds1 + (-(1) / 2) * ds2) v) (pxfe2oct : 0 < xfe2oct v) :
    HasDerivAt (fun v => D2GDR0R1 (t v) (xfe2tet v) (xfe2oct v))
    (((D3GDR0R0R1 (t v) (xfe2tet v) (xfe2oct v)) * dr0 + (D3GDR0R1R1 (t v) (xfe2tet v) (xfe2oct v)) * dr1 +
    (D3GDR0R1R2 (t v) (xfe2tet v)) * dr2 + D3GDR0R1R3 * dr3) + ((D3GDR0R1DT (xfe2tet v) (xfe2oct v)) * dt +
    D3GDR0R1DP * dp) + ((D3GDR0R1S0 (t v) (xfe2tet v) (xfe2oct v)) * ds0 + (D3GDR0R1S1 (t v) (xfe2tet v)
    (xfe2oct v)) * ds1 + (D3GDR0R1S2 (t v) (xfe2tet v) (xfe2oct v)) * ds2)) v := by
  have nxfe2tet := pxfe2tet.ne'
  have nxfe2oct := pxfe2oct.ne'
  try simp only [D2GDR0R1, D3GDR0R1DT, D3GDR0R1DP, D3GDR0R0R1, D3GDR0R1R1, D3GDR0R1R2, D3GDR0R1R3, D3GDR0R1S0, D3GDR0R1S1, D3GDR0R1S2, zero_mul, mul_zero, add_zero, zero_add, sub_zero]
  refine HasDerivAt.congr_deriv (by hdq) ?_
  ring

lemma c_D2GDR0R2 {t p r0 r1 r2 r3 s0 s1 s2 xfe2tet : ℝ → ℝ} {v dt dp dr0 dr1 dr2 dr3 ds0 ds1 ds2 : ℝ} (ht : HasDerivAt t dt
    v) (hp : HasDerivAt p dp v) (hr0 : HasDerivAt r0 dr0 v) (hr1 : HasDerivAt r1 dr1 v) (hr2 : HasDerivAt r2 dr2
    v) (hr3 : HasDerivAt r3 dr3 v) (hs0 : HasDerivAt s0 ds0 v) (hs1 : HasDerivAt s1 ds1 v) (hs2 : HasDerivAt s2
    ds2 v) (hxfe2tet : HasDerivAt xfe2tet ((-(1) / 2) * dr0 + 1 * dr1 + 1 * dr2 + (-(1) / 2) * ds0 + 1 * ds1 + 1
    * ds2) v) (pxfe2tet : 0 < xfe2tet v) :
    HasDerivAt (fun v => D2GDR0R2 (t v) (xfe2tet v))
    (((D3GDR0R0R2 (t v) (xfe2tet v)) * dr0 + (D3GDR0R1R2 (t v) (xfe2tet v)) * dr1 + (D3GDR0R2R2 (t v) (xfe2tet
    v)) * dr2 + D3GDR0R2R3 * dr3) + ((D3GDR0R2DT (xfe2tet v)) * dt + D3GDR0R2DP * dp) + ((D3GDR0R2S0 (t v)
    (xfe2tet v)) * ds0 + (D3GDR0R2S1 (t v) (xfe2tet v)) * ds1 + (D3GDR0R2S2 (t v) (xfe2tet v)) * ds2)) v := by
  have nxfe2tet := pxfe2tet.ne'
  try simp only [D2GDR0R2, D3GDR0R2DT, D3GDR0R2DP, D3GDR0R0R2, D3GDR0R1R2, D3GDR0R2R2, D3GDR0R2R3, D3GDR0R2S0, D3GDR0R2S1, D3GDR0R2S2, zero_mul, mul_zero, add_zero, zero_add, sub_zero]
  refine HasDerivAt.congr_deriv (by hdq) ?_
  ring

lemma c_D2GDR0R3 {t p r0 r1 r2 r3 s0 s1 s2 : ℝ → ℝ} {v dt dp dr0 dr1 dr2 dr3 ds0 ds1 ds2 : ℝ} (ht : HasDerivAt t dt v) (hp :
    HasDerivAt p dp v) (hr0 : HasDerivAt r0 dr0 v) (hr1 : HasDerivAt r1 dr1 v) (hr2 : HasDerivAt r2 dr2 v) (hr3
    : HasDerivAt r3 dr3 v) (hs0 : HasDerivAt s0 ds0 v) (hs1 : HasDerivAt s1 ds1 v) (hs2 : HasDerivAt s2 ds2 v) :
    HasDerivAt (fun v => D2GDR0R3)
    ((D3GDR0R0R3 * dr0 + D3GDR0R1R3 * dr1 + D3GDR0R2R3 * dr2 + D3GDR0R3R3 * dr3) + (D3GDR0R3DT * dt + D3GDR0R3DP
    * dp) + (D3GDR0R3S0 * ds0 + D3GDR0R3S1 * ds1 + D3GDR0R3S2 * ds2)) v := by
  try simp only [D2GDR0R3, D3GDR0R3DT, D3GDR0R3DP, D3GDR0R0R3, D3GDR0R1R3, D3GDR0R2R3, D3GDR0R3R3, D3GDR0R3S0, D3GDR0R3S1, D3GDR0R3S2, zero_mul, mul_zero, add_zero, zero_add, sub_zero]
  refine HasDerivAt.congr_deriv (by hdq) ?_
  ring

lemma c_D2GDR0S0 {t p r0 r1 r2 r3 s0 s1 s2 xmg2tet xfe2tet xmg2oct xfe2oct : ℝ → ℝ} {v dt dp dr0 dr1 dr2 dr3 ds0 ds1 ds2 : ℝ}
    (ht : HasDerivAt t dt v) (hp : HasDerivAt p dp v) (hr0 : HasDerivAt r0 dr0 v) (hr1 : HasDerivAt r1 dr1 v)
    (hr2 : HasDerivAt r2 dr2 v) (hr3 : HasDerivAt r3 dr3 v) (hs0 : HasDerivAt s0 ds0 v) (hs1 : HasDerivAt s1 ds1
    v) (hs2 : HasDerivAt s2 ds2 v) (hxmg2tet : HasDerivAt xmg2tet ((1 / 2) * dr0 + (1 / 2) * ds0) v) (pxmg2tet :
    0 < xmg2tet v) (hxfe2tet : HasDerivAt xfe2tet ((-(1) / 2) * dr0 + 1 * dr1 + 1 * dr2 + (-(1) / 2) * ds0 + 1 *
    ds1 + 1 * ds2) v) (pxfe2tet : 0 < xfe2tet v) (hxmg2oct : HasDerivAt xmg2oct ((1 / 4) * dr0 + (-(1) / 4) *
    ds0) v) (pxmg2oct : 0 < xmg2oct v) (hxfe2oct : HasDerivAt xfe2oct ((-(1) / 4) * dr0 + (-(1) / 2) * dr1 + (1
    / 4) * ds0 + (-(1) / 2) * ds1 + (-(1) / 2) * ds2) v) (pxfe2oct : 0 < xfe2oct v) :
    HasDerivAt (fun v => D2GDR0S0 (t v) (xmg2tet v) (xfe2tet v) (xmg2oct v) (xfe2oct v))
    (((D3GDR0R0S0 (t v) (xmg2tet v) (xfe2tet v) (xmg2oct v) (xfe2oct v)) * dr0 + (D3GDR0R1S0 (t v) (xfe2tet v)
    (xfe2oct v)) * dr1 + (D3GDR0R2S0 (t v) (xfe2tet v)) * dr2 + D3GDR0R3S0 * dr3) + ((D3GDR0S0DT (xmg2tet v)
    (xfe2tet v) (xmg2oct v) (xfe2oct v)) * dt + D3GDR0S0DP * dp) + ((D3GDR0S0S0 (t v) (xmg2tet v) (xfe2tet v)
    (xmg2oct v) (xfe2oct v)) * ds0 + (D3GDR0S0S1 (t v) (xfe2tet v) (xfe2oct v)) * ds1 + (D3GDR0S0S2 (t v)
    (xfe2tet v) (xfe2oct v)) * ds2)) v := by
  have nxmg2tet := pxmg2tet.ne'
  have nxfe2tet := pxfe2tet.ne'
  have nxmg2oct := pxmg2oct.ne'
  have nxfe2oct := pxfe2oct.ne'
  try simp only [D2GDR0S0, D3GDR0S0DT, D3GDR0S0DP, D3GDR0R0S0, D3GDR0R1S0, D3GDR0R2S0, D3GDR0R3S0, D3GDR0S0S0, D3GDR0S0S1, D3GDR0S0S2, zero_mul, mul_zero, add_zero, zero_add, sub_zero]
  refine HasDerivAt.congr_deriv (by hdq) ?_
  ring

lemma c_D2GDR0S1 {t p r0 r1 r2 r3 s0 s1 s2 xfe2tet xfe2oct : ℝ → ℝ} {v dt dp dr0 dr1 dr2 dr3 ds0 ds1 ds2 : ℝ} (ht :
    HasDerivAt t dt v) (hp : HasDerivAt p dp v) (hr0 : HasDerivAt r0 dr0 v) (hr1 : HasDerivAt r1 dr1 v) (hr2 :
    HasDerivAt r2 dr2 v) (hr3 : HasDerivAt r3 dr3 v) (hs0 : HasDerivAt s0 ds0 v) (hs1 : HasDerivAt s1 ds1 v)
    (hs2 : HasDerivAt s2 ds2 v) (hxfe2tet : HasDerivAt xfe2tet ((-(1) / 2) * dr0 + 1 * dr1 + 1 * dr2 + (-(1) /
    2) * ds0 + 1 * ds1 + 1 * ds2) v) (pxfe2tet : 0 < xfe2tet v) (hxfe2oct : HasDerivAt xfe2oct ((-(1) / 4) * dr0
    + (-(1) / 2) * dr1 + (1 / 4) * ds0 + (-(1) / 2) * ds1 + (-(1) / 2) * ds2) v) (pxfe2oct : 0 < xfe2oct v) :
    HasDerivAt (fun v => D2GDR0S1 (t v) (xfe2tet v) (xfe2oct v))
    (((D3GDR0R0S1 (t v) (xfe2tet v) (xfe2oct v)) * dr0 + (D3GDR0R1S1 (t v) (xfe2tet v) (xfe2oct v)) * dr1 +
    (D3GDR0R2S1 (t v) (xfe2tet v)) * dr2 + D3GDR0R3S1 * dr3) + ((D3GDR0S1DT (xfe2tet v) (xfe2oct v)) * dt +
    D3GDR0S1DP * dp) + ((D3GDR0S0S1 (t v) (xfe2tet v) (xfe2oct v)) * ds0 + (D3GDR0S1S1 (t v) (xfe2tet v)
    (xfe2oct v)) * ds1 + (D3GDR0S1S2 (t v) (xfe2tet v) (xfe2oct v)) * ds2)) v := by
  have nxfe2tet := pxfe2tet.ne'
  have nxfe2oct := pxfe2oct.ne'
  try simp only [D2GDR0S1, D3GDR0S1DT, D3GDR0S1DP, D3GDR0R0S1, D3GDR0R1S1, D3GDR0R2S1, D3GDR0R3S1, D3GDR0S0S1, D3GDR0S1S1, D3GDR0S1S2, zero_mul, mul_zero, add_zero, zero_add, sub_zero]
  refine HasDerivAt.congr_deriv (by hdq) ?_
  ring

lemma c_D2GDR0S2 {t p r0 r1 r2 r3 s0 s1 s2 xfe2tet xfe2oct : ℝ → ℝ} {v dt dp dr0 dr1 dr2 dr3 ds0 ds1 ds2 : ℝ} (ht :
    HasDerivAt t dt v) (hp : HasDerivAt p dp v) (hr0 : HasDerivAt r0 dr0 v) (hr1 : HasDerivAt r1 dr1 v) (hr2 :
    HasDerivAt r2 dr2 v) (hr3 : HasDerivAt r3 dr3 v) (hs0 : HasDerivAt s0 ds0 v) (hs1 : HasDerivAt s1 ds1 v)
    (hs2 : HasDerivAt s2 ds2 v) (hxfe2tet : HasDerivAt xfe2tet ((-(1) / 2) * dr0 + 1 * dr1 + 1 * dr2 + (-(1) /
    2) * ds0 + 1 * ds1 + 1 * ds2) v) (pxfe2tet : 0 < xfe2tet v) (hxfe2oct : HasDerivAt xfe2oct ((-(1) / 4) * dr0
    + (-(1) / 2) * dr1 + (1 / 4) * ds0 + (-(1) / 2) * ds1 + (-(1) / 2) * ds2) v) (pxfe2oct : 0 < xfe2oct v) :
    HasDerivAt (fun v => D2GDR0S2 (t v) (xfe2tet v) (xfe2oct v))
    (((D3GDR0R0S2 (t v) (xfe2tet v) (xfe2oct v)) * dr0 + (D3GDR0R1S2 (t v) (xfe2tet v) (xfe2oct v)) * dr1 +
    (D3GDR0R2S2 (t v) (xfe2tet v)) * dr2 + D3GDR0R3S2 * dr3) + ((D3GDR0S2DT (xfe2tet v) (xfe2oct v)) * dt +
    D3GDR0S2DP * dp) + ((D3GDR0S0S2 (t v) (xfe2tet v) (xfe2oct v)) * ds0 + (D3GDR0S1S2 (t v) (xfe2tet v)
    (xfe2oct v)) * ds1 + (D3GDR0S2S2 (t v) (xfe2tet v) (xfe2oct v)) * ds2)) v := by
  have nxfe2tet := pxfe2tet.ne'
  have nxfe2oct := pxfe2oct.ne'
  try simp only [D2GDR0S2, D3GDR0S2DT, D3GDR0S2DP, D3GDR0R0S2, D3GDR0R1S2, D3GDR0R2S2, D3GDR0R3S2, D3GDR0S0S2, D3GDR0S1S2, D3GDR0S2S2, zero_mul, mul_zero, add_zero, zero_add, sub_zero]
  refine HasDerivAt.congr_deriv (by hdq) ?_
  ring

lemma c_D2GDR0DT {t p r0 r1 r2 r3 s0 s1 s2 xmg2tet xfe2tet xmg2oct xfe2oct : ℝ → ℝ} {v dt dp dr0 dr1 dr2 dr3 ds0 ds1 ds2 : ℝ}
    (ht : HasDerivAt t dt v) (hp : HasDerivAt p dp v) (hr0 : HasDerivAt r0 dr0 v) (hr1 : HasDerivAt r1 dr1 v)
    (hr2 : HasDerivAt r2 dr2 v) (hr3 : HasDerivAt r3 dr3 v) (hs0 : HasDerivAt s0 ds0 v) (hs1 : HasDerivAt s1 ds1
    v) (hs2 : HasDerivAt s2 ds2 v) (hxmg2tet : HasDerivAt xmg2tet ((1 / 2) * dr0 + (1 / 2) * ds0) v) (pxmg2tet :
    0 < xmg2tet v) (hxfe2tet : HasDerivAt xfe2tet ((-(1) / 2) * dr0 + 1 * dr1 + 1 * dr2 + (-(1) / 2) * ds0 + 1 *
    ds1 + 1 * ds2) v) (pxfe2tet : 0 < xfe2tet v) (hxmg2oct : HasDerivAt xmg2oct ((1 / 4) * dr0 + (-(1) / 4) *
    ds0) v) (pxmg2oct : 0 < xmg2oct v) (hxfe2oct : HasDerivAt xfe2oct ((-(1) / 4) * dr0 + (-(1) / 2) * dr1 + (1
    / 4) * ds0 + (-(1) / 2) * ds1 + (-(1) / 2) * ds2) v) (pxfe2oct : 0 < xfe2oct v) :
    HasDerivAt (fun v => D2GDR0DT (xmg2tet v) (xfe2tet v) (xmg2oct v) (xfe2oct v))
    (((D3GDR0R0DT (xmg2tet v) (xfe2tet v) (xmg2oct v) (xfe2oct v)) * dr0 + (D3GDR0R1DT (xfe2tet v) (xfe2oct v)) *
    dr1 + (D3GDR0R2DT (xfe2tet v)) * dr2 + D3GDR0R3DT * dr3) + (D3GDR0DT2 * dt + D3GDR0DTDP * dp) + ((D3GDR0S0DT
    (xmg2tet v) (xfe2tet v) (xmg2oct v) (xfe2oct v)) * ds0 + (D3GDR0S1DT (xfe2tet v) (xfe2oct v)) * ds1 +
    (D3GDR0S2DT (xfe2tet v) (xfe2oct v)) * ds2)) v := by
  have nxmg2tet := pxmg2tet.ne'
  have nxfe2tet := pxfe2tet.ne'
  have nxmg2oct := pxmg2oct.ne'
  have nxfe2oct := pxfe2oct.ne'
  try simp only [D2GDR0DT, D3GDR0DT2, D3GDR0DTDP, D3GDR0R0DT, D3GDR0R1DT, D3GDR0R2DT, D3GDR0R3DT, D3GDR0S0DT, D3GDR0S1DT, D3GDR0S2DT, zero_mul, mul_zero, add_zero, zero_add, sub_zero]
  refine HasDerivAt.congr_deriv (by hdq) ?_
  ring

lemma c_D2GDR0DP {t p r0 r1 r2 r3 s0 s1 s2 : ℝ → ℝ} {v dt dp dr0 dr1 dr2 dr3 ds0 ds1 ds2 : ℝ} (ht : HasDerivAt t dt v) (hp :
    HasDerivAt p dp v) (hr0 : HasDerivAt r0 dr0 v) (hr1 : HasDerivAt r1 dr1 v) (hr2 : HasDerivAt r2 dr2 v) (hr3
    : HasDerivAt r3 dr3 v) (hs0 : HasDerivAt s0 ds0 v) (hs1 : HasDerivAt s1 ds1 v) (hs2 : HasDerivAt s2 ds2 v) :
    HasDerivAt (fun v => D2GDR0DP)
    ((D3GDR0R0DP * dr0 + D3GDR0R1DP * dr1 + D3GDR0R2DP * dr2 + D3GDR0R3DP * dr3) + (D3GDR0DTDP * dt + D3GDR0DP2 *
    dp) + (D3GDR0S0DP * ds0 + D3GDR0S1DP * ds1 + D3GDR0S2DP * ds2)) v := by
  try simp only [D2GDR0DP, D3GDR0DTDP, D3GDR0DP2, D3GDR0R0DP, D3GDR0R1DP, D3GDR0R2DP, D3GDR0R3DP, D3GDR0S0DP, D3GDR0S1DP, D3GDR0S2DP, zero_mul, mul_zero, add_zero, zero_add, sub_zero]
  refine HasDerivAt.congr_deriv (by hdq) ?_
  ring

lemma c_D2GDR1R1 {t p r0 r1 r2 r3 s0 s1 s2 xfe2tet xal3tet xfe2oct xal3oct xcr3oct : ℝ → ℝ} {v dt dp dr0 dr1 dr2 dr3 ds0 ds1
    ds2 : ℝ} (ht : HasDerivAt t dt v) (hp : HasDerivAt p dp v) (hr0 : HasDerivAt r0 dr0 v) (hr1 : HasDerivAt r1
    dr1 v) (hr2 : HasDerivAt r2 dr2 v) (hr3 : HasDerivAt r3 dr3 v) (hs0 : HasDerivAt s0 ds0 v) (hs1 : HasDerivAt
    s1 ds1 v) (hs2 : HasDerivAt s2 ds2 v) (hxfe2tet : HasDerivAt xfe2tet ((-(1) / 2) * dr0 + 1 * dr1 + 1 * dr2 +
    (-(1) / 2) * ds0 + 1 * ds1 + 1 * ds2) v) (pxfe2tet : 0 < xfe2tet v) (hxal3tet : HasDerivAt xal3tet ((-1) *
    dr1 + (-1) * dr2 + (-1) * dr3 + (-1) * ds1) v) (pxal3tet : 0 < xal3tet v) (hxfe2oct : HasDerivAt xfe2oct
    ((-(1) / 4) * dr0 + (-(1) / 2) * dr1 + (1 / 4) * ds0 + (-(1) / 2) * ds1 + (-(1) / 2) * ds2) v) (pxfe2oct : 0
    < xfe2oct v) (hxal3oct : HasDerivAt xal3oct ((-(1) / 2) * dr1 + (-(1) / 2) * dr2 + (-(1) / 2) * dr3 + (1 /
    2) * ds1) v) (pxal3oct : 0 < xal3oct v) (hxcr3oct : HasDerivAt xcr3oct (1 * dr1) v) (pxcr3oct : 0 < xcr3oct
    v) :
    HasDerivAt (fun v => D2GDR1R1 (t v) (xfe2tet v) (xal3tet v) (xfe2oct v) (xal3oct v) (xcr3oct v))
    (((D3GDR0R1R1 (t v) (xfe2tet v) (xfe2oct v)) * dr0 + (D3GDR1R1R1 (t v) (xfe2tet v) (xal3tet v) (xfe2oct v)
    (xal3oct v) (xcr3oct v)) * dr1 + (D3GDR1R1R2 (t v) (xfe2tet v) (xal3tet v) (xal3oct v)) * dr2 + (D3GDR1R1R3
    (t v) (xal3tet v) (xal3oct v)) * dr3) + ((D3GDR1R1DT (xfe2tet v) (xal3tet v) (xfe2oct v) (xal3oct v)
    (xcr3oct v)) * dt + D3GDR1R1DP * dp) + ((D3GDR1R1S0 (t v) (xfe2tet v) (xfe2oct v)) * ds0 + (D3GDR1R1S1 (t v)
    (xfe2tet v) (xal3tet v) (xfe2oct v) (xal3oct v)) * ds1 + (D3GDR1R1S2 (t v) (xfe2tet v) (xfe2oct v)) * ds2)) v := by
  have nxfe2tet := pxfe2tet.ne'
  have nxal3tet := pxal3tet.ne'
  have nxfe2oct := pxfe2oct.ne'
  have nxal3oct := pxal3oct.ne'
  have nxcr3oct := pxcr3oct.ne'
  try simp only [D2GDR1R1, D3GDR1R1DT, D3GDR1R1DP, D3GDR0R1R1, D3GDR1R1R1, D3GDR1R1R2, D3GDR1R1R3, D3GDR1R1S0, D3GDR1R1S1, D3GDR1R1S2, zero_mul, mul_zero, add_zero, zero_add, sub_zero]
  refine HasDerivAt.congr_deriv (by hdq) ?_
  ring

lemma c_D2GDR1R2 {t p r0 r1 r2 r3 s0 s1 s2 xfe2tet xal3tet xal3oct : ℝ → ℝ} {v dt dp dr0 dr1 dr2 dr3 ds0 ds1 ds2 : ℝ} (ht :
    HasDerivAt t dt v) (hp : HasDerivAt p dp v) (hr0 : HasDerivAt r0 dr0 v) (hr1 : HasDerivAt r1 dr1 v) (hr2 :
    HasDerivAt r2 dr2 v) (hr3 : HasDerivAt r3 dr3 v) (hs0 : HasDerivAt s0 ds0 v) (hs1 : HasDerivAt s1 ds1 v)
    (hs2 : HasDerivAt s2 ds2 v) (hxfe2tet : HasDerivAt xfe2tet ((-(1) / 2) * dr0 + 1 * dr1 + 1 * dr2 + (-(1) /
    2) * ds0 + 1 * ds1 + 1 * ds2) v) (pxfe2tet : 0 < xfe2tet v) (hxal3tet : HasDerivAt xal3tet ((-1) * dr1 +
    (-1) * dr2 + (-1) * dr3 + (-1) * ds1) v) (pxal3tet : 0 < xal3tet v) (hxal3oct : HasDerivAt xal3oct ((-(1) /
    2) * dr1 + (-(1) / 2) * dr2 + (-(1) / 2) * dr3 + (1 / 2) * ds1) v) (pxal3oct : 0 < xal3oct v) :
    HasDerivAt (fun v => D2GDR1R2 (t v) (xfe2tet v) (xal3tet v) (xal3oct v))
    (((D3GDR0R1R2 (t v) (xfe2tet v)) * dr0 + (D3GDR1R1R2 (t v) (xfe2tet v) (xal3tet v) (xal3oct v)) * dr1 +
    (D3GDR1R2R2 (t v) (xfe2tet v) (xal3tet v) (xal3oct v)) * dr2 + (D3GDR1R2R3 (t v) (xal3tet v) (xal3oct v)) *
    dr3) + ((D3GDR1R2DT (xfe2tet v) (xal3tet v) (xal3oct v)) * dt + D3GDR1R2DP * dp) + ((D3GDR1R2S0 (t v)
    (xfe2tet v)) * ds0 + (D3GDR1R2S1 (t v) (xfe2tet v) (xal3tet v) (xal3oct v)) * ds1 + (D3GDR1R2S2 (t v)
    (xfe2tet v)) * ds2)) v := by
  have nxfe2tet := pxfe2tet.ne'
  have nxal3tet := pxal3tet.ne'
  have nxal3oct := pxal3oct.ne'
  try simp only [D2GDR1R2, D3GDR1R2DT, D3GDR1R2DP, D3GDR0R1R2, D3GDR1R1R2, D3GDR1R2R2, D3GDR1R2R3, D3GDR1R2S0, D3GDR1R2S1, D3GDR1R2S2, zero_mul, mul_zero, add_zero, zero_add, sub_zero]
  refine HasDerivAt.congr_deriv (by hdq) ?_
  ring

lemma c_D2GDR1R3 {t p r0 r1 r2 r3 s0 s1 s2 xal3tet xal3oct : ℝ → ℝ} {v dt dp dr0 dr1 dr2 dr3 ds0 ds1 ds2 : ℝ} (ht :
    HasDerivAt t dt v) (hp : HasDerivAt p dp v) (hr0 : HasDerivAt r0 dr0 v) (hr1 : HasDerivAt r1 dr1 v) (hr2 :
    HasDerivAt r2 dr2 v) (hr3 : HasDerivAt r3 dr3 v) (hs0 : HasDerivAt s0 ds0 v) (hs1 : HasDerivAt s1 ds1 v)
    (hs2 : HasDerivAt s2 ds2 v) (hxal3tet : HasDerivAt xal3tet ((-1) * dr1 + (-1) * dr2 + (-1) * dr3 + (-1) *
    ds1) v) (pxal3tet : 0 < xal3tet v) (hxal3oct : HasDerivAt xal3oct ((-(1) / 2) * dr1 + (-(1) / 2) * dr2 +
    (-(1) / 2) * dr3 + (1 / 2) * ds1) v) (pxal3oct : 0 < xal3oct v) :
    HasDerivAt (fun v => D2GDR1R3 (t v) (xal3tet v) (xal3oct v))
    ((D3GDR0R1R3 * dr0 + (D3GDR1R1R3 (t v) (xal3tet v) (xal3oct v)) * dr1 + (D3GDR1R2R3 (t v) (xal3tet v)
    (xal3oct v)) * dr2 + (D3GDR1R3R3 (t v) (xal3tet v) (xal3oct v)) * dr3) + ((D3GDR1R3DT (xal3tet v) (xal3oct
    v)) * dt + D3GDR1R3DP * dp) + (D3GDR1R3S0 * ds0 + (D3GDR1R3S1 (t v) (xal3tet v) (xal3oct v)) * ds1 +
    D3GDR1R3S2 * ds2)) v := by
  have nxal3tet := pxal3tet.ne'
  have nxal3oct := pxal3oct.ne'
  try simp only [D2GDR1R3, D3GDR1R3DT, D3GDR1R3DP, D3GDR0R1R3, D3GDR1R1R3, D3GDR1R2R3, D3GDR1R3R3, D3GDR1R3S0, D3GDR1R3S1, D3GDR1R3S2, zero_mul, mul_zero, add_zero, zero_add, sub_zero]
  refine HasDerivAt.congr_deriv (by hdq) ?_
  ring

lemma c_D2GDR1S0 {t p r0 r1 r2 r3 s0 s1 s2 xfe2tet xfe2oct : ℝ → ℝ} {v dt dp dr0 dr1 dr2 dr3 ds0 ds1 ds2 : ℝ} (ht :
    HasDerivAt t dt v) (hp : HasDerivAt p dp v) (hr0 : HasDerivAt r0 dr0 v) (hr1 : HasDerivAt r1 dr1 v) (hr2 :
    HasDerivAt r2 dr2 v) (hr3 : HasDerivAt r3 dr3 v) (hs0 : HasDerivAt s0 ds0 v) (hs1 : HasDerivAt s1 ds1 v)
    (hs2 : HasDerivAt s2 ds2 v) (hxfe2tet : HasDerivAt xfe2tet ((-(1) / 2) * dr0 + 1 * dr1 + 1 * dr2 + (-(1) /
    2) * ds0 + 1 * ds1 + 1 * ds2) v) (pxfe2tet : 0 < xfe2tet v) (hxfe2oct : HasDerivAt xfe2oct ((-(1) / 4) * dr0
    + (-(1) / 2) * dr1 + (1 / 4) * ds0 + (-(1) / 2) * ds1 + (-(1) / 2) * ds2) v) (pxfe2oct : 0 < xfe2oct v) :
    HasDerivAt (fun v => D2GDR1S0 (t v) (xfe2tet v) (xfe2oct v))
    (((D3GDR0R1S0 (t v) (xfe2tet v) (xfe2oct v)) * dr0 + (D3GDR1R1S0 (t v) (xfe2tet v) (xfe2oct v)) * dr1 +
    (D3GDR1R2S0 (t v) (xfe2tet v)) * dr2 + D3GDR1R3S0 * dr3) + ((D3GDR1S0DT (xfe2tet v) (xfe2oct v)) * dt +
    D3GDR1S0DP * dp) + ((D3GDR1S0S0 (t v) (xfe2tet v) (xfe2oct v)) * ds0 + (D3GDR1S0S1 (t v) (xfe2tet v)
    (xfe2oct v)) * ds1 + (D3GDR1S0S2 (t v) (xfe2tet v) (xfe2oct v)) * ds2)) v := by
  have nxfe2tet := pxfe2tet.ne'
  have nxfe2oct := pxfe2oct.ne'
  try simp only [D2GDR1S0, D3GDR1S0DT, D3GDR1S0DP, D3GDR0R1S0, D3GDR1R1S0, D3GDR1R2S0, D3GDR1R3S0, D3GDR1S0S0, D3GDR1S0S1, D3GDR1S0S2, zero_mul, mul_zero, add_zero, zero_add, sub_zero]
  refine HasDerivAt.congr_deriv (by hdq) ?_
  ring

lemma c_D2GDR1S1 {t p r0 r1 r2 r3 s0 s1 s2 xfe2tet xal3tet xfe2oct xal3oct : ℝ → ℝ} {v dt dp dr0 dr1 dr2 dr3 ds0 ds1 ds2 : ℝ}
    (ht : HasDerivAt t dt v) (hp : HasDerivAt p dp v) (hr0 : HasDerivAt r0 dr0 v) (hr1 : HasDerivAt r1 dr1 v)
    (hr2 : HasDerivAt r2 dr2 v) (hr3 : HasDerivAt r3 dr3 v) (hs0 : HasDerivAt s0 ds0 v) (hs1 : HasDerivAt s1 ds1
    v) (hs2 : HasDerivAt s2 ds2 v) (hxfe2tet : HasDerivAt xfe2tet ((-(1) / 2) * dr0 + 1 * dr1 + 1 * dr2 + (-(1)
    / 2) * ds0 + 1 * ds1 + 1 * ds2) v) (pxfe2tet : 0 < xfe2tet v) (hxal3tet : HasDerivAt xal3tet ((-1) * dr1 +
    (-1) * dr2 + (-1) * dr3 + (-1) * ds1) v) (pxal3tet : 0 < xal3tet v) (hxfe2oct : HasDerivAt xfe2oct ((-(1) /
    4) * dr0 + (-(1) / 2) * dr1 + (1 / 4) * ds0 + (-(1) / 2) * ds1 + (-(1) / 2) * ds2) v) (pxfe2oct : 0 <
    xfe2oct v) (hxal3oct : HasDerivAt xal3oct ((-(1) / 2) * dr1 + (-(1) / 2) * dr2 + (-(1) / 2) * dr3 + (1 / 2)
    * ds1) v) (pxal3oct : 0 < xal3oct v) :
    HasDerivAt (fun v => D2GDR1S1 (t v) (xfe2tet v) (xal3tet v) (xfe2oct v) (xal3oct v))
    (((D3GDR0R1S1 (t v) (xfe2tet v) (xfe2oct v)) * dr0 + (D3GDR1R1S1 (t v) (xfe2tet v) (xal3tet v) (xfe2oct v)
    (xal3oct v)) * dr1 + (D3GDR1R2S1 (t v) (xfe2tet v) (xal3tet v) (xal3oct v)) * dr2 + (D3GDR1R3S1 (t v)
    (xal3tet v) (xal3oct v)) * dr3) + ((D3GDR1S1DT (xfe2tet v) (xal3tet v) (xfe2oct v) (xal3oct v)) * dt +
    D3GDR1S1DP * dp) + ((D3GDR1S0S1 (t v) (xfe2tet v) (xfe2oct v)) * ds0 + (D3GDR1S1S1 (t v) (xfe2tet v)
    (xal3tet v) (xfe2oct v) (xal3oct v)) * ds1 + (D3GDR1S1S2 (t v) (xfe2tet v) (xfe2oct v)) * ds2)) v := by
  have nxfe2tet := pxfe2tet.ne'
  have nxal3tet := pxal3tet.ne'
  have nxfe2oct := pxfe2oct.ne'
  have nxal3oct := pxal3oct.ne'
  try simp only [D2GDR1S1, D3GDR1S1DT, D3GDR1S1DP, D3GDR0R1S1, D3GDR1R1S1, D3GDR1R2S1, D3GDR1R3S1, D3GDR1S0S1, D3GDR1S1S1, D3GDR1S1S2, zero_mul, mul_zero, add_zero, zero_add, sub_zero]
  refine HasDerivAt.congr_deriv (by hdq) ?_
  ring

lemma c_D2GDR1S2 {t p r0 r1 r2 r3 s0 s1 s2 xfe2tet xfe2oct : ℝ → ℝ} {v dt dp dr0 dr1 dr2 dr3 ds0 ds1 ds2 : ℝ} (ht :
    HasDerivAt t dt v) (hp : HasDerivAt p dp v) (hr0 : HasDerivAt r0 dr0 v) (hr1 : HasDerivAt r1 dr1 v) (hr2 :
    HasDerivAt r2 dr2 v) (hr3 : HasDerivAt r3 dr3 v) (hs0 : HasDerivAt s0 ds0 v) (hs1 : HasDerivAt s1 ds1 v)
    (hs2 : HasDerivAt s2 ds2 v) (hxfe2tet : HasDerivAt xfe2tet ((-(1) / 2) * dr0 + 1 * dr1 + 1 * dr2 + (-(1) /
    2) * ds0 + 1 * ds1 + 1 * ds2) v) (pxfe2tet : 0 < xfe2tet v) (hxfe2oct : HasDerivAt xfe2oct ((-(1) / 4) * dr0
    + (-(1) / 2) * dr1 + (1 / 4) * ds0 + (-(1) / 2) * ds1 + (-(1) / 2) * ds2) v) (pxfe2oct : 0 < xfe2oct v) :
    HasDerivAt (fun v => D2GDR1S2 (t v) (xfe2tet v) (xfe2oct v))
    (((D3GDR0R1S2 (t v) (xfe2tet v) (xfe2oct v)) * dr0 + (D3GDR1R1S2 (t v) (xfe2tet v) (xfe2oct v)) * dr1 +
    (D3GDR1R2S2 (t v) (xfe2tet v)) * dr2 + D3GDR1R3S2 * dr3) + ((D3GDR1S2DT (xfe2tet v) (xfe2oct v)) * dt +
    D3GDR1S2DP * dp) + ((D3GDR1S0S2 (t v) (xfe2tet v) (xfe2oct v)) * ds0 + (D3GDR1S1S2 (t v) (xfe2tet v)
    (xfe2oct v)) * ds1 + (D3GDR1S2S2 (t v) (xfe2tet v) (xfe2oct v)) * ds2)) v := by
  have nxfe2tet := pxfe2tet.ne'
  have nxfe2oct := pxfe2oct.ne'
  try simp only [D2GDR1S2, D3GDR1S2DT, D3GDR1S2DP, D3GDR0R1S2, D3GDR1R1S2, D3GDR1R2S2, D3GDR1R3S2, D3GDR1S0S2, D3GDR1S1S2, D3GDR1S2S2, zero_mul, mul_zero, add_zero, zero_add, sub_zero]
  refine HasDerivAt.congr_deriv (by hdq) ?_
  ring

lemma c_D2GDR1DT {t p r0 r1 r2 r3 s0 s1 s2 xfe2tet xal3tet xfe2oct xal3oct xcr3oct : ℝ → ℝ} {v dt dp dr0 dr1 dr2 dr3 ds0 ds1
    ds2 : ℝ} (ht : HasDerivAt t dt v) (hp : HasDerivAt p dp v) (hr0 : HasDerivAt r0 dr0 v) (hr1 : HasDerivAt r1
    dr1 v) (hr2 : HasDerivAt r2 dr2 v) (hr3 : HasDerivAt r3 dr3 v) (hs0 : HasDerivAt s0 ds0 v) (hs1 : HasDerivAt
    s1 ds1 v) (hs2 : HasDerivAt s2 ds2 v) (hxfe2tet : HasDerivAt xfe2tet ((-(1) / 2) * dr0 + 1 * dr1 + 1 * dr2 +
    (-(1) / 2) * ds0 + 1 * ds1 + 1 * ds2) v) (pxfe2tet : 0 < xfe2tet v) (hxal3tet : HasDerivAt xal3tet ((-1) *
    dr1 + (-1) * dr2 + (-1) * dr3 + (-1) * ds1) v) (pxal3tet : 0 < xal3tet v) (hxfe2oct : HasDerivAt xfe2oct
    ((-(1) / 4) * dr0 + (-(1) / 2) * dr1 + (1 / 4) * ds0 + (-(1) / 2) * ds1 + (-(1) / 2) * ds2) v) (pxfe2oct : 0
    < xfe2oct v) (hxal3oct : HasDerivAt xal3oct ((-(1) / 2) * dr1 + (-(1) / 2) * dr2 + (-(1) / 2) * dr3 + (1 /
    2) * ds1) v) (pxal3oct : 0 < xal3oct v) (hxcr3oct : HasDerivAt xcr3oct (1 * dr1) v) (pxcr3oct : 0 < xcr3oct
    v) :
    HasDerivAt (fun v => D2GDR1DT (xfe2tet v) (xal3tet v) (xfe2oct v) (xal3oct v) (xcr3oct v))
    (((D3GDR0R1DT (xfe2tet v) (xfe2oct v)) * dr0 + (D3GDR1R1DT (xfe2tet v) (xal3tet v) (xfe2oct v) (xal3oct v)
    (xcr3oct v)) * dr1 + (D3GDR1R2DT (xfe2tet v) (xal3tet v) (xal3oct v)) * dr2 + (D3GDR1R3DT (xal3tet v)
    (xal3oct v)) * dr3) + (D3GDR1DT2 * dt + D3GDR1DTDP * dp) + ((D3GDR1S0DT (xfe2tet v) (xfe2oct v)) * ds0 +
    (D3GDR1S1DT (xfe2tet v) (xal3tet v) (xfe2oct v) (xal3oct v)) * ds1 + (D3GDR1S2DT (xfe2tet v) (xfe2oct v)) *
    ds2)) v := by
  have nxfe2tet := pxfe2tet.ne'
  have nxal3tet := pxal3tet.ne'
  have nxfe2oct := pxfe2oct.ne'
  have nxal3oct := pxal3oct.ne'
  have nxcr3oct := pxcr3oct.ne'
  try simp only [D2GDR1DT, D3GDR1DT2, D3GDR1DTDP, D3GDR0R1DT, D3GDR1R1DT, D3GDR1R2DT, D3GDR1R3DT, D3GDR1S0DT, D3GDR1S1DT, D3GDR1S2DT, zero_mul, mul_zero, add_zero, zero_add, sub_zero]
  refine HasDerivAt.congr_deriv (by hdq) ?_
  try simp only [log2 nxfe2tet nxal3tet]
  ring

lemma c_D2GDR1DP {t p r0 r1 r2 r3 s0 s1 s2 : ℝ → ℝ} {v dt dp dr0 dr1 dr2 dr3 ds0 ds1 ds2 : ℝ} (ht : HasDerivAt t dt v) (hp :
    HasDerivAt p dp v) (hr0 : HasDerivAt r0 dr0 v) (hr1 : HasDerivAt r1 dr1 v) (hr2 : HasDerivAt r2 dr2 v) (hr3
    : HasDerivAt r3 dr3 v) (hs0 : HasDerivAt s0 ds0 v) (hs1 : HasDerivAt s1 ds1 v) (hs2 : HasDerivAt s2 ds2 v) :
    HasDerivAt (fun v => D2GDR1DP)
    ((D3GDR0R1DP * dr0 + D3GDR1R1DP * dr1 + D3GDR1R2DP * dr2 + D3GDR1R3DP * dr3) + (D3GDR1DTDP * dt + D3GDR1DP2 *
    dp) + (D3GDR1S0DP * ds0 + D3GDR1S1DP * ds1 + D3GDR1S2DP * ds2)) v := by
  try simp only [D2GDR1DP, D3GDR1DTDP, D3GDR1DP2, D3GDR0R1DP, D3GDR1R1DP, D3GDR1R2DP, D3GDR1R3DP, D3GDR1S0DP, D3GDR1S1DP, D3GDR1S2DP, zero_mul, mul_zero, add_zero, zero_add, sub_zero]
  refine HasDerivAt.congr_deriv (by hdq) ?_
  ring

lemma c_D2GDR2R2 {t p r0 r1 r2 r3 s0 s1 s2 xfe2tet xal3tet xal3oct xti4oct : ℝ → ℝ} {v dt dp dr0 dr1 dr2 dr3 ds0 ds1 ds2 : ℝ}
    (ht : HasDerivAt t dt v) (hp : HasDerivAt p dp v) (hr0 : HasDerivAt r0 dr0 v) (hr1 : HasDerivAt r1 dr1 v)
    (hr2 : HasDerivAt r2 dr2 v) (hr3 : HasDerivAt r3 dr3 v) (hs0 : HasDerivAt s0 ds0 v) (hs1 : HasDerivAt s1 ds1
    v) (hs2 : HasDerivAt s2 ds2 v) (hxfe2tet : HasDerivAt xfe2tet ((-(1) / 2) * dr0 + 1 * dr1 + 1 * dr2 + (-(1)
    / 2) * ds0 + 1 * ds1 + 1 * ds2) v) (pxfe2tet : 0 < xfe2tet v) (hxal3tet : HasDerivAt xal3tet ((-1) * dr1 +
    (-1) * dr2 + (-1) * dr3 + (-1) * ds1) v) (pxal3tet : 0 < xal3tet v) (hxal3oct : HasDerivAt xal3oct ((-(1) /
    2) * dr1 + (-(1) / 2) * dr2 + (-(1) / 2) * dr3 + (1 / 2) * ds1) v) (pxal3oct : 0 < xal3oct v) (hxti4oct :
    HasDerivAt xti4oct ((1 / 2) * dr2) v) (pxti4oct : 0 < xti4oct v) :
    HasDerivAt (fun v => D2GDR2R2 (t v) (p v) (r3 v) (xfe2tet v) (xal3tet v) (xal3oct v) (xti4oct v))
    (((D3GDR0R2R2 (t v) (xfe2tet v)) * dr0 + (D3GDR1R2R2 (t v) (xfe2tet v) (xal3tet v) (xal3oct v)) * dr1 +
    (D3GDR2R2R2 (t v) (xfe2tet v) (xal3tet v) (xal3oct v) (xti4oct v)) * dr2 + (D3GDR2R2R3 (t v) (p v) (xal3tet
    v) (xal3oct v)) * dr3) + ((D3GDR2R2DT (xfe2tet v) (xal3tet v) (xal3oct v) (xti4oct v)) * dt + (D3GDR2R2DP
    (r3 v)) * dp) + ((D3GDR2R2S0 (t v) (xfe2tet v)) * ds0 + (D3GDR2R2S1 (t v) (xfe2tet v) (xal3tet v) (xal3oct
    v)) * ds1 + (D3GDR2R2S2 (t v) (xfe2tet v)) * ds2)) v := by
  have nxfe2tet := pxfe2tet.ne'
  have nxal3tet := pxal3tet.ne'
  have nxal3oct := pxal3oct.ne'
  have nxti4oct := pxti4oct.ne'
  try simp only [D2GDR2R2, D3GDR2R2DT, D3GDR2R2DP, D3GDR0R2R2, D3GDR1R2R2, D3GDR2R2R2, D3GDR2R2R3, D3GDR2R2S0, D3GDR2R2S1, D3GDR2R2S2, zero_mul, mul_zero, add_zero, zero_add, sub_zero]
  refine HasDerivAt.congr_deriv (by hdq) ?_
  ring

lemma c_D2GDR2R3 {t p r0 r1 r2 r3 s0 s1 s2 xal3tet xal3oct : ℝ → ℝ} {v dt dp dr0 dr1 dr2 dr3 ds0 ds1 ds2 : ℝ} (ht :
    HasDerivAt t dt v) (hp : HasDerivAt p dp v) (hr0 : HasDerivAt r0 dr0 v) (hr1 : HasDerivAt r1 dr1 v) (hr2 :
    HasDerivAt r2 dr2 v) (hr3 : HasDerivAt r3 dr3 v) (hs0 : HasDerivAt s0 ds0 v) (hs1 : HasDerivAt s1 ds1 v)
    (hs2 : HasDerivAt s2 ds2 v) (hxal3tet : HasDerivAt xal3tet ((-1) * dr1 + (-1) * dr2 + (-1) * dr3 + (-1) *
    ds1) v) (pxal3tet : 0 < xal3tet v) (hxal3oct : HasDerivAt xal3oct ((-(1) / 2) * dr1 + (-(1) / 2) * dr2 +
    (-(1) / 2) * dr3 + (1 / 2) * ds1) v) (pxal3oct : 0 < xal3oct v) :
    HasDerivAt (fun v => D2GDR2R3 (t v) (p v) (r2 v) (r3 v) (xal3tet v) (xal3oct v))
    ((D3GDR0R2R3 * dr0 + (D3GDR1R2R3 (t v) (xal3tet v) (xal3oct v)) * dr1 + (D3GDR2R2R3 (t v) (p v) (xal3tet v)
    (xal3oct v)) * dr2 + (D3GDR2R3R3 (t v) (p v) (xal3tet v) (xal3oct v)) * dr3) + ((D3GDR2R3DT (xal3tet v)
    (xal3oct v)) * dt + (D3GDR2R3DP (r2 v) (r3 v)) * dp) + (D3GDR2R3S0 * ds0 + (D3GDR2R3S1 (t v) (xal3tet v)
    (xal3oct v)) * ds1 + D3GDR2R3S2 * ds2)) v := by
  have nxal3tet := pxal3tet.ne'
  have nxal3oct := pxal3oct.ne'
  try simp only [D2GDR2R3, D3GDR2R3DT, D3GDR2R3DP, D3GDR0R2R3, D3GDR1R2R3, D3GDR2R2R3, D3GDR2R3R3, D3GDR2R3S0, D3GDR2R3S1, D3GDR2R3S2, zero_mul, mul_zero, add_zero, zero_add, sub_zero]
  refine HasDerivAt.congr_deriv (by hdq) ?_
  ring

lemma c_D2GDR2S0 {t p r0 r1 r2 r3 s0 s1 s2 xfe2tet : ℝ → ℝ} {v dt dp dr0 dr1 dr2 dr3 ds0 ds1 ds2 : ℝ} (ht : HasDerivAt t dt
    v) (hp : HasDerivAt p dp v) (hr0 : HasDerivAt r0 dr0 v) (hr1 : HasDerivAt r1 dr1 v) (hr2 : HasDerivAt r2 dr2
    v) (hr3 : HasDerivAt r3 dr3 v) (hs0 : HasDerivAt s0 ds0 v) (hs1 : HasDerivAt s1 ds1 v) (hs2 : HasDerivAt s2
    ds2 v) (hxfe2tet : HasDerivAt xfe2tet ((-(1) / 2) * dr0 + 1 * dr1 + 1 * dr2 + (-(1) / 2) * ds0 + 1 * ds1 + 1
    * ds2) v) (pxfe2tet : 0 < xfe2tet v) :
    HasDerivAt (fun v => D2GDR2S0 (t v) (xfe2tet v))
    (((D3GDR0R2S0 (t v) (xfe2tet v)) * dr0 + (D3GDR1R2S0 (t v) (xfe2tet v)) * dr1 + (D3GDR2R2S0 (t v) (xfe2tet
    v)) * dr2 + D3GDR2R3S0 * dr3) + ((D3GDR2S0DT (xfe2tet v)) * dt + D3GDR2S0DP * dp) + ((D3GDR2S0S0 (t v)
    (xfe2tet v)) * ds0 + (D3GDR2S0S1 (t v) (xfe2tet v)) * ds1 + (D3GDR2S0S2 (t v) (xfe2tet v)) * ds2)) v := by
  have nxfe2tet := pxfe2tet.ne'
  try simp only [D2GDR2S0, D3GDR2S0DT, D3GDR2S0DP, D3GDR0R2S0, D3GDR1R2S0, D3GDR2R2S0, D3GDR2R3S0, D3GDR2S0S0, D3GDR2S0S1, D3GDR2S0S2, zero_mul, mul_zero, add_zero, zero_add, sub_zero]
  refine HasDerivAt.congr_deriv (by hdq) ?_
  ring

lemma c_D2GDR2S1 {t p r0 r1 r2 r3 s0 s1 s2 xfe2tet xal3tet xal3oct : ℝ → ℝ} {v dt dp dr0 dr1 dr2 dr3 ds0 ds1 ds2 : ℝ} (ht :
    HasDerivAt t dt v) (hp : HasDerivAt p dp v) (hr0 : HasDerivAt r0 dr0 v) (hr1 : HasDerivAt r1 dr1 v) (hr2 :
    HasDerivAt r2 dr2 v) (hr3 : HasDerivAt r3 dr3 v) (hs0 : HasDerivAt s0 ds0 v) (hs1 : HasDerivAt s1 ds1 v)
    (hs2 : HasDerivAt s2 ds2 v) (hxfe2tet : HasDerivAt xfe2tet ((-(1) / 2) * dr0 + 1 * dr1 + 1 * dr2 + (-(1) /
    2) * ds0 + 1 * ds1 + 1 * ds2) v) (pxfe2tet : 0 < xfe2tet v) (hxal3tet : HasDerivAt xal3tet ((-1) * dr1 +
    (-1) * dr2 + (-1) * dr3 + (-1) * ds1) v) (pxal3tet : 0 < xal3tet v) (hxal3oct : HasDerivAt xal3oct ((-(1) /
    2) * dr1 + (-(1) / 2) * dr2 + (-(1) / 2) * dr3 + (1 / 2) * ds1) v) (pxal3oct : 0 < xal3oct v) :
    HasDerivAt (fun v => D2GDR2S1 (t v) (xfe2tet v) (xal3tet v) (xal3oct v))
    (((D3GDR0R2S1 (t v) (xfe2tet v)) * dr0 + (D3GDR1R2S1 (t v) (xfe2tet v) (xal3tet v) (xal3oct v)) * dr1 +
    (D3GDR2R2S1 (t v) (xfe2tet v) (xal3tet v) (xal3oct v)) * dr2 + (D3GDR2R3S1 (t v) (xal3tet v) (xal3oct v)) *
    dr3) + ((D3GDR2S1DT (xfe2tet v) (xal3tet v) (xal3oct v)) * dt + D3GDR2S1DP * dp) + ((D3GDR2S0S1 (t v)
    (xfe2tet v)) * ds0 + (D3GDR2S1S1 (t v) (xfe2tet v) (xal3tet v) (xal3oct v)) * ds1 + (D3GDR2S1S2 (t v)
    (xfe2tet v)) * ds2)) v := by
  have nxfe2tet := pxfe2tet.ne'
  have nxal3tet := pxal3tet.ne'
  have nxal3oct := pxal3oct.ne'
  try simp only [D2GDR2S1, D3GDR2S1DT, D3GDR2S1DP, D3GDR0R2S1, D3GDR1R2S1, D3GDR2R2S1, D3GDR2R3S1, D3GDR2S0S1, D3GDR2S1S1, D3GDR2S1S2, zero_mul, mul_zero, add_zero, zero_add, sub_zero]
  refine HasDerivAt.congr_deriv (by hdq) ?_
  ring

lemma c_D2GDR2S2 {t p r0 r1 r2 r3 s0 s1 s2 xfe2tet : ℝ → ℝ} {v dt dp dr0 dr1 dr2 dr3 ds0 ds1 ds2 : ℝ} (ht : HasDerivAt t dt
    v) (hp : HasDerivAt p dp v) (hr0 : HasDerivAt r0 dr0 v) (hr1 : HasDerivAt r1 dr1 v) (hr2 : HasDerivAt r2 dr2
    v) (hr3 : HasDerivAt r3 dr3 v) (hs0 : HasDerivAt s0 ds0 v) (hs1 : HasDerivAt s1 ds1 v) (hs2 : HasDerivAt s2
    ds2 v) (hxfe2tet : HasDerivAt xfe2tet ((-(1) / 2) * dr0 + 1 * dr1 + 1 * dr2 + (-(1) / 2) * ds0 + 1 * ds1 + 1
    * ds2) v) (pxfe2tet : 0 < xfe2tet v) :
    HasDerivAt (fun v => D2GDR2S2 (t v) (xfe2tet v))
    (((D3GDR0R2S2 (t v) (xfe2tet v)) * dr0 + (D3GDR1R2S2 (t v) (xfe2tet v)) * dr1 + (D3GDR2R2S2 (t v) (xfe2tet
    v)) * dr2 + D3GDR2R3S2 * dr3) + ((D3GDR2S2DT (xfe2tet v)) * dt + D3GDR2S2DP * dp) + ((D3GDR2S0S2 (t v)
    (xfe2tet v)) * ds0 + (D3GDR2S1S2 (t v) (xfe2tet v)) * ds1 + (D3GDR2S2S2 (t v) (xfe2tet v)) * ds2)) v := by
  have nxfe2tet := pxfe2tet.ne'
  try simp only [D2GDR2S2, D3GDR2S2DT, D3GDR2S2DP, D3GDR0R2S2, D3GDR1R2S2, D3GDR2R2S2, D3GDR2R3S2, D3GDR2S0S2, D3GDR2S1S2, D3GDR2S2S2, zero_mul, mul_zero, add_zero, zero_add, sub_zero]
  refine HasDerivAt.congr_deriv (by hdq) ?_
  ring

lemma c_D2GDR2DT {t p r0 r1 r2 r3 s0 s1 s2 xfe2tet xal3tet xal3oct xti4oct : ℝ → ℝ} {v dt dp dr0 dr1 dr2 dr3 ds0 ds1 ds2 : ℝ}
    (ht : HasDerivAt t dt v) (hp : HasDerivAt p dp v) (hr0 : HasDerivAt r0 dr0 v) (hr1 : HasDerivAt r1 dr1 v)
    (hr2 : HasDerivAt r2 dr2 v) (hr3 : HasDerivAt r3 dr3 v) (hs0 : HasDerivAt s0 ds0 v) (hs1 : HasDerivAt s1 ds1
    v) (hs2 : HasDerivAt s2 ds2 v) (hxfe2tet : HasDerivAt xfe2tet ((-(1) / 2) * dr0 + 1 * dr1 + 1 * dr2 + (-(1)
    / 2) * ds0 + 1 * ds1 + 1 * ds2) v) (pxfe2tet : 0 < xfe2tet v) (hxal3tet : HasDerivAt xal3tet ((-1) * dr1 +
    (-1) * dr2 + (-1) * dr3 + (-1) * ds1) v) (pxal3tet : 0 < xal3tet v) (hxal3oct : HasDerivAt xal3oct ((-(1) /
    2) * dr1 + (-(1) / 2) * dr2 + (-(1) / 2) * dr3 + (1 / 2) * ds1) v) (pxal3oct : 0 < xal3oct v) (hxti4oct :
    HasDerivAt xti4oct ((1 / 2) * dr2) v) (pxti4oct : 0 < xti4oct v) :
    HasDerivAt (fun v => D2GDR2DT (xfe2tet v) (xal3tet v) (xal3oct v) (xti4oct v))
    (((D3GDR0R2DT (xfe2tet v)) * dr0 + (D3GDR1R2DT (xfe2tet v) (xal3tet v) (xal3oct v)) * dr1 + (D3GDR2R2DT
    (xfe2tet v) (xal3tet v) (xal3oct v) (xti4oct v)) * dr2 + (D3GDR2R3DT (xal3tet v) (xal3oct v)) * dr3) +
    (D3GDR2DT2 * dt + D3GDR2DTDP * dp) + ((D3GDR2S0DT (xfe2tet v)) * ds0 + (D3GDR2S1DT (xfe2tet v) (xal3tet v)
    (xal3oct v)) * ds1 + (D3GDR2S2DT (xfe2tet v)) * ds2)) v := by
  have nxfe2tet := pxfe2tet.ne'
  have nxal3tet := pxal3tet.ne'
  have nxal3oct := pxal3oct.ne'
  have nxti4oct := pxti4oct.ne'
  try simp only [D2GDR2DT, D3GDR2DT2, D3GDR2DTDP, D3GDR0R2DT, D3GDR1R2DT, D3GDR2R2DT, D3GDR2R3DT, D3GDR2S0DT, D3GDR2S1DT, D3GDR2S2DT, zero_mul, mul_zero, add_zero, zero_add, sub_zero]
  refine HasDerivAt.congr_deriv (by hdq) ?_
  try simp only [log2 nxfe2tet nxal3tet, log2 nxti4oct nxal3oct]
  ring

lemma c_D2GDR2DP {t p r0 r1 r2 r3 s0 s1 s2 : ℝ → ℝ} {v dt dp dr0 dr1 dr2 dr3 ds0 ds1 ds2 : ℝ} (ht : HasDerivAt t dt v) (hp :
    HasDerivAt p dp v) (hr0 : HasDerivAt r0 dr0 v) (hr1 : HasDerivAt r1 dr1 v) (hr2 : HasDerivAt r2 dr2 v) (hr3
    : HasDerivAt r3 dr3 v) (hs0 : HasDerivAt s0 ds0 v) (hs1 : HasDerivAt s1 ds1 v) (hs2 : HasDerivAt s2 ds2 v) :
    HasDerivAt (fun v => D2GDR2DP (r2 v) (r3 v))
    ((D3GDR0R2DP * dr0 + D3GDR1R2DP * dr1 + (D3GDR2R2DP (r3 v)) * dr2 + (D3GDR2R3DP (r2 v) (r3 v)) * dr3) +
    (D3GDR2DTDP * dt + D3GDR2DP2 * dp) + (D3GDR2S0DP * ds0 + D3GDR2S1DP * ds1 + D3GDR2S2DP * ds2)) v := by
  try simp only [D2GDR2DP, D3GDR2DTDP, D3GDR2DP2, D3GDR0R2DP, D3GDR1R2DP, D3GDR2R2DP, D3GDR2R3DP, D3GDR2S0DP, D3GDR2S1DP, D3GDR2S2DP, zero_mul, mul_zero, add_zero, zero_add, sub_zero]
  refine HasDerivAt.congr_deriv (by hdq) ?_
  ring

lemma c_D2GDR3R3 {t p r0 r1 r2 r3 s0 s1 s2 xal3tet xfe3tet xal3oct xfe3oct : ℝ → ℝ} {v dt dp dr0 dr1 dr2 dr3 ds0 ds1 ds2 : ℝ}
    (ht : HasDerivAt t dt v) (hp : HasDerivAt p dp v) (hr0 : HasDerivAt r0 dr0 v) (hr1 : HasDerivAt r1 dr1 v)
    (hr2 : HasDerivAt r2 dr2 v) (hr3 : HasDerivAt r3 dr3 v) (hs0 : HasDerivAt s0 ds0 v) (hs1 : HasDerivAt s1 ds1
    v) (hs2 : HasDerivAt s2 ds2 v) (hxal3tet : HasDerivAt xal3tet ((-1) * dr1 + (-1) * dr2 + (-1) * dr3 + (-1) *
    ds1) v) (pxal3tet : 0 < xal3tet v) (hxfe3tet : HasDerivAt xfe3tet (1 * dr3 + (-1) * ds2) v) (pxfe3tet : 0 <
    xfe3tet v) (hxal3oct : HasDerivAt xal3oct ((-(1) / 2) * dr1 + (-(1) / 2) * dr2 + (-(1) / 2) * dr3 + (1 / 2)
    * ds1) v) (pxal3oct : 0 < xal3oct v) (hxfe3oct : HasDerivAt xfe3oct ((1 / 2) * dr3 + (1 / 2) * ds2) v)
    (pxfe3oct : 0 < xfe3oct v) :
    HasDerivAt (fun v => D2GDR3R3 (t v) (p v) (r2 v) (xal3tet v) (xfe3tet v) (xal3oct v) (xfe3oct v))
    ((D3GDR0R3R3 * dr0 + (D3GDR1R3R3 (t v) (xal3tet v) (xal3oct v)) * dr1 + (D3GDR2R3R3 (t v) (p v) (xal3tet v)
    (xal3oct v)) * dr2 + (D3GDR3R3R3 (t v) (xal3tet v) (xfe3tet v) (xal3oct v) (xfe3oct v)) * dr3) +
    ((D3GDR3R3DT (xal3tet v) (xfe3tet v) (xal3oct v) (xfe3oct v)) * dt + (D3GDR3R3DP (r2 v)) * dp) + (D3GDR3R3S0
    * ds0 + (D3GDR3R3S1 (t v) (xal3tet v) (xal3oct v)) * ds1 + (D3GDR3R3S2 (t v) (xfe3tet v) (xfe3oct v)) * ds2)) v := by
  have nxal3tet := pxal3tet.ne'
  have nxfe3tet := pxfe3tet.ne'
  have nxal3oct := pxal3oct.ne'
  have nxfe3oct := pxfe3oct.ne'
  try simp only [D2GDR3R3, D3GDR3R3DT, D3GDR3R3DP, D3GDR0R3R3, D3GDR1R3R3, D3GDR2R3R3, D3GDR3R3R3, D3GDR3R3S0, D3GDR3R3S1, D3GDR3R3S2, zero_mul, mul_zero, add_zero, zero_add, sub_zero]
  refine HasDerivAt.congr_deriv (by hdq) ?_
  ring

lemma c_D2GDR3S0 {t p r0 r1 r2 r3 s0 s1 s2 : ℝ → ℝ} {v dt dp dr0 dr1 dr2 dr3 ds0 ds1 ds2 : ℝ} (ht : HasDerivAt t dt v) (hp :
    HasDerivAt p dp v) (hr0 : HasDerivAt r0 dr0 v) (hr1 : HasDerivAt r1 dr1 v) (hr2 : HasDerivAt r2 dr2 v) (hr3
    : HasDerivAt r3 dr3 v) (hs0 : HasDerivAt s0 ds0 v) (hs1 : HasDerivAt s1 ds1 v) (hs2 : HasDerivAt s2 ds2 v) :
    HasDerivAt (fun v => D2GDR3S0)
    ((D3GDR0R3S0 * dr0 + D3GDR1R3S0 * dr1 + D3GDR2R3S0 * dr2 + D3GDR3R3S0 * dr3) + (D3GDR3S0DT * dt + D3GDR3S0DP
    * dp) + (D3GDR3S0S0 * ds0 + D3GDR3S0S1 * ds1 + D3GDR3S0S2 * ds2)) v := by
  try simp only [D2GDR3S0, D3GDR3S0DT, D3GDR3S0DP, D3GDR0R3S0, D3GDR1R3S0, D3GDR2R3S0, D3GDR3R3S0, D3GDR3S0S0, D3GDR3S0S1, D3GDR3S0S2, zero_mul, mul_zero, add_zero, zero_add, sub_zero]
  refine HasDerivAt.congr_deriv (by hdq) ?_
  ring

lemma c_D2GDR3S1 {t p r0 r1 r2 r3 s0 s1 s2 xal3tet xal3oct : ℝ → ℝ} {v dt dp dr0 dr1 dr2 dr3 ds0 ds1 ds2 : ℝ} (ht :
    HasDerivAt t dt v) (hp : HasDerivAt p dp v) (hr0 : HasDerivAt r0 dr0 v) (hr1 : HasDerivAt r1 dr1 v) (hr2 :
    HasDerivAt r2 dr2 v) (hr3 : HasDerivAt r3 dr3 v) (hs0 : HasDerivAt s0 ds0 v) (hs1 : HasDerivAt s1 ds1 v)
    (hs2 : HasDerivAt s2 ds2 v) (hxal3tet : HasDerivAt xal3tet ((-1) * dr1 + (-1) * dr2 + (-1) * dr3 + (-1) *
    ds1) v) (pxal3tet : 0 < xal3tet v) (hxal3oct : HasDerivAt xal3oct ((-(1) / 2) * dr1 + (-(1) / 2) * dr2 +
    (-(1) / 2) * dr3 + (1 / 2) * ds1) v) (pxal3oct : 0 < xal3oct v) :
    HasDerivAt (fun v => D2GDR3S1 (t v) (xal3tet v) (xal3oct v))
    ((D3GDR0R3S1 * dr0 + (D3GDR1R3S1 (t v) (xal3tet v) (xal3oct v)) * dr1 + (D3GDR2R3S1 (t v) (xal3tet v)
    (xal3oct v)) * dr2 + (D3GDR3R3S1 (t v) (xal3tet v) (xal3oct v)) * dr3) + ((D3GDR3S1DT (xal3tet v) (xal3oct
    v)) * dt + D3GDR3S1DP * dp) + (D3GDR3S0S1 * ds0 + (D3GDR3S1S1 (t v) (xal3tet v) (xal3oct v)) * ds1 +
    D3GDR3S1S2 * ds2)) v := by
  have nxal3tet := pxal3tet.ne'
  have nxal3oct := pxal3oct.ne'
  try simp only [D2GDR3S1, D3GDR3S1DT, D3GDR3S1DP, D3GDR0R3S1, D3GDR1R3S1, D3GDR2R3S1, D3GDR3R3S1, D3GDR3S0S1, D3GDR3S1S1, D3GDR3S1S2, zero_mul, mul_zero, add_zero, zero_add, sub_zero]
  refine HasDerivAt.congr_deriv (by hdq) ?_
  ring

lemma c_D2GDR3S2 {t p r0 r1 r2 r3 s0 s1 s2 xfe3tet xfe3oct : ℝ → ℝ} {v dt dp dr0 dr1 dr2 dr3 ds0 ds1 ds2 : ℝ} (ht :
    HasDerivAt t dt v) (hp : HasDerivAt p dp v) (hr0 : HasDerivAt r0 dr0 v) (hr1 : HasDerivAt r1 dr1 v) (hr2 :
    HasDerivAt r2 dr2 v) (hr3 : HasDerivAt r3 dr3 v) (hs0 : HasDerivAt s0 ds0 v) (hs1 : HasDerivAt s1 ds1 v)
    (hs2 : HasDerivAt s2 ds2 v) (hxfe3tet : HasDerivAt xfe3tet (1 * dr3 + (-1) * ds2) v) (pxfe3tet : 0 < xfe3tet
    v) (hxfe3oct : HasDerivAt xfe3oct ((1 / 2) * dr3 + (1 / 2) * ds2) v) (pxfe3oct : 0 < xfe3oct v) :
    HasDerivAt (fun v => D2GDR3S2 (t v) (xfe3tet v) (xfe3oct v))
    ((D3GDR0R3S2 * dr0 + D3GDR1R3S2 * dr1 + D3GDR2R3S2 * dr2 + (D3GDR3R3S2 (t v) (xfe3tet v) (xfe3oct v)) * dr3)
    + ((D3GDR3S2DT (xfe3tet v) (xfe3oct v)) * dt + D3GDR3S2DP * dp) + (D3GDR3S0S2 * ds0 + D3GDR3S1S2 * ds1 +
    (D3GDR3S2S2 (t v) (xfe3tet v) (xfe3oct v)) * ds2)) v := by
  have nxfe3tet := pxfe3tet.ne'
  have nxfe3oct := pxfe3oct.ne'
  try simp only [D2GDR3S2, D3GDR3S2DT, D3GDR3S2DP, D3GDR0R3S2, D3GDR1R3S2, D3GDR2R3S2, D3GDR3R3S2, D3GDR3S0S2, D3GDR3S1S2, D3GDR3S2S2, zero_mul, mul_zero, add_zero, zero_add, sub_zero]
  refine HasDerivAt.congr_deriv (by hdq) ?_
  ring

lemma c_D2GDR3DT {t p r0 r1 r2 r3 s0 s1 s2 xal3tet xfe3tet xal3oct xfe3oct : ℝ → ℝ} {v dt dp dr0 dr1 dr2 dr3 ds0 ds1 ds2 : ℝ}
    (ht : HasDerivAt t dt v) (hp : HasDerivAt p dp v) (hr0 : HasDerivAt r0 dr0 v) (hr1 : HasDerivAt r1 dr1 v)
    (hr2 : HasDerivAt r2 dr2 v) (hr3 : HasDerivAt r3 dr3 v) (hs0 : HasDerivAt s0 ds0 v) (hs1 : HasDerivAt s1 ds1
    v) (hs2 : HasDerivAt s2 ds2 v) (hxal3tet : HasDerivAt xal3tet ((-1) * dr1 + (-1) * dr2 + (-1) * dr3 + (-1) *
    ds1) v) (pxal3tet : 0 < xal3tet v) (hxfe3tet : HasDerivAt xfe3tet (1 * dr3 + (-1) * ds2) v) (pxfe3tet : 0 <
    xfe3tet v) (hxal3oct : HasDerivAt xal3oct ((-(1) / 2) * dr1 + (-(1) / 2) * dr2 + (-(1) / 2) * dr3 + (1 / 2)
    * ds1) v) (pxal3oct : 0 < xal3oct v) (hxfe3oct : HasDerivAt xfe3oct ((1 / 2) * dr3 + (1 / 2) * ds2) v)
    (pxfe3oct : 0 < xfe3oct v) :
    HasDerivAt (fun v => D2GDR3DT (xal3tet v) (xfe3tet v) (xal3oct v) (xfe3oct v))
    ((D3GDR0R3DT * dr0 + (D3GDR1R3DT (xal3tet v) (xal3oct v)) * dr1 + (D3GDR2R3DT (xal3tet v) (xal3oct v)) * dr2
    + (D3GDR3R3DT (xal3tet v) (xfe3tet v) (xal3oct v) (xfe3oct v)) * dr3) + (D3GDR3DT2 * dt + D3GDR3DTDP * dp) +
    (D3GDR3S0DT * ds0 + (D3GDR3S1DT (xal3tet v) (xal3oct v)) * ds1 + (D3GDR3S2DT (xfe3tet v) (xfe3oct v)) * ds2)) v := by
  have nxal3tet := pxal3tet.ne'
  have nxfe3tet := pxfe3tet.ne'
  have nxal3oct := pxal3oct.ne'
  have nxfe3oct := pxfe3oct.ne'
  try simp only [D2GDR3DT, D3GDR3DT2, D3GDR3DTDP, D3GDR0R3DT, D3GDR1R3DT, D3GDR2R3DT, D3GDR3R3DT, D3GDR3S0DT, D3GDR3S1DT, D3GDR3S2DT, zero_mul, mul_zero, add_zero, zero_add, sub_zero]
  refine HasDerivAt.congr_deriv (by hdq) ?_
  try simp only [log2 nxfe3tet nxal3tet, log2 nxfe3oct nxal3oct]
  ring

lemma c_D2GDR3DP {t p r0 r1 r2 r3 s0 s1 s2 : ℝ → ℝ} {v dt dp dr0 dr1 dr2 dr3 ds0 ds1 ds2 : ℝ} (ht : HasDerivAt t dt v) (hp :
    HasDerivAt p dp v) (hr0 : HasDerivAt r0 dr0 v) (hr1 : HasDerivAt r1 dr1 v) (hr2 : HasDerivAt r2 dr2 v) (hr3
    : HasDerivAt r3 dr3 v) (hs0 : HasDerivAt s0 ds0 v) (hs1 : HasDerivAt s1 ds1 v) (hs2 : HasDerivAt s2 ds2 v) :
    HasDerivAt (fun v => D2GDR3DP (r2 v) (r3 v))
    ((D3GDR0R3DP * dr0 + D3GDR1R3DP * dr1 + (D3GDR2R3DP (r2 v) (r3 v)) * dr2 + (D3GDR3R3DP (r2 v)) * dr3) +
    (D3GDR3DTDP * dt + D3GDR3DP2 * dp) + (D3GDR3S0DP * ds0 + D3GDR3S1DP * ds1 + D3GDR3S2DP * ds2)) v := by
  try simp only [D2GDR3DP, D3GDR3DTDP, D3GDR3DP2, D3GDR0R3DP, D3GDR1R3DP, D3GDR2R3DP, D3GDR3R3DP, D3GDR3S0DP, D3GDR3S1DP, D3GDR3S2DP, zero_mul, mul_zero, add_zero, zero_add, sub_zero]
  refine HasDerivAt.congr_deriv (by hdq) ?_
  ring

lemma c_D2GDS0S0 {t p r0 r1 r2 r3 s0 s1 s2 xmg2tet xfe2tet xmg2oct xfe2oct : ℝ → ℝ} {v dt dp dr0 dr1 dr2 dr3 ds0 ds1 ds2 : ℝ}
    (ht : HasDerivAt t dt v) (hp : HasDerivAt p dp v) (hr0 : HasDerivAt r0 dr0 v) (hr1 : HasDerivAt r1 dr1 v)
    (hr2 : HasDerivAt r2 dr2 v) (hr3 : HasDerivAt r3 dr3 v) (hs0 : HasDerivAt s0 ds0 v) (hs1 : HasDerivAt s1 ds1
    v) (hs2 : HasDerivAt s2 ds2 v) (hxmg2tet : HasDerivAt xmg2tet ((1 / 2) * dr0 + (1 / 2) * ds0) v) (pxmg2tet :
    0 < xmg2tet v) (hxfe2tet : HasDerivAt xfe2tet ((-(1) / 2) * dr0 + 1 * dr1 + 1 * dr2 + (-(1) / 2) * ds0 + 1 *
    ds1 + 1 * ds2) v) (pxfe2tet : 0 < xfe2tet v) (hxmg2oct : HasDerivAt xmg2oct ((1 / 4) * dr0 + (-(1) / 4) *
    ds0) v) (pxmg2oct : 0 < xmg2oct v) (hxfe2oct : HasDerivAt xfe2oct ((-(1) / 4) * dr0 + (-(1) / 2) * dr1 + (1
    / 4) * ds0 + (-(1) / 2) * ds1 + (-(1) / 2) * ds2) v) (pxfe2oct : 0 < xfe2oct v) :
    HasDerivAt (fun v => D2GDS0S0 (t v) (xmg2tet v) (xfe2tet v) (xmg2oct v) (xfe2oct v))
    (((D3GDR0S0S0 (t v) (xmg2tet v) (xfe2tet v) (xmg2oct v) (xfe2oct v)) * dr0 + (D3GDR1S0S0 (t v) (xfe2tet v)
    (xfe2oct v)) * dr1 + (D3GDR2S0S0 (t v) (xfe2tet v)) * dr2 + D3GDR3S0S0 * dr3) + ((D3GDS0S0DT (xmg2tet v)
    (xfe2tet v) (xmg2oct v) (xfe2oct v)) * dt + D3GDS0S0DP * dp) + ((D3GDS0S0S0 (t v) (xmg2tet v) (xfe2tet v)
    (xmg2oct v) (xfe2oct v)) * ds0 + (D3GDS0S0S1 (t v) (xfe2tet v) (xfe2oct v)) * ds1 + (D3GDS0S0S2 (t v)
    (xfe2tet v) (xfe2oct v)) * ds2)) v := by
  have nxmg2tet := pxmg2tet.ne'
  have nxfe2tet := pxfe2tet.ne'
  have nxmg2oct := pxmg2oct.ne'
  have nxfe2oct := pxfe2oct.ne'
  try simp only [D2GDS0S0, D3GDS0S0DT, D3GDS0S0DP, D3GDR0S0S0, D3GDR1S0S0, D3GDR2S0S0, D3GDR3S0S0, D3GDS0S0S0, D3GDS0S0S1, D3GDS0S0S2, zero_mul, mul_zero, add_zero, zero_add, sub_zero]
  refine HasDerivAt.congr_deriv (by hdq) ?_
  ring

lemma c_D2GDS0S1 {t p r0 r1 r2 r3 s0 s1 s2 xfe2tet xfe2oct : ℝ → ℝ} {v dt dp dr0 dr1 dr2 dr3 ds0 ds1 ds2 : ℝ} (ht :
    HasDerivAt t dt v) (hp : HasDerivAt p dp v) (hr0 : HasDerivAt r0 dr0 v) (hr1 : HasDerivAt r1 dr1 v) (hr2 :
    HasDerivAt r2 dr2 v) (hr3 : HasDerivAt r3 dr3 v) (hs0 : HasDerivAt s0 ds0 v) (hs1 : HasDerivAt s1 ds1 v)
    (hs2 : HasDerivAt s2 ds2 v) (hxfe2tet : HasDerivAt xfe2tet ((-(1) / 2) * dr0 + 1 * dr1 + 1 * dr2 + (-(1) /
    2) * ds0 + 1 * ds1 + 1 * ds2) v) (pxfe2tet : 0 < xfe2tet v) (hxfe2oct : HasDerivAt xfe2oct ((-(1) / 4) * dr0
    + (-(1) / 2) * dr1 + (1 / 4) * ds0 + (-(1) / 2) * ds1 + (-(1) / 2) * ds2) v) (pxfe2oct : 0 < xfe2oct v) :
    HasDerivAt (fun v => D2GDS0S1 (t v) (xfe2tet v) (xfe2oct v))
    (((D3GDR0S0S1 (t v) (xfe2tet v) (xfe2oct v)) * dr0 + (D3GDR1S0S1 (t v) (xfe2tet v) (xfe2oct v)) * dr1 +
    (D3GDR2S0S1 (t v) (xfe2tet v)) * dr2 + D3GDR3S0S1 * dr3) + ((D3GDS0S1DT (xfe2tet v) (xfe2oct v)) * dt +
    D3GDS0S1DP * dp) + ((D3GDS0S0S1 (t v) (xfe2tet v) (xfe2oct v)) * ds0 + (D3GDS0S1S1 (t v) (xfe2tet v)
    (xfe2oct v)) * ds1 + (D3GDS0S1S2 (t v) (xfe2tet v) (xfe2oct v)) * ds2)) v := by
  have nxfe2tet := pxfe2tet.ne'
  have nxfe2oct := pxfe2oct.ne'
  try simp only [D2GDS0S1, D3GDS0S1DT, D3GDS0S1DP, D3GDR0S0S1, D3GDR1S0S1, D3GDR2S0S1, D3GDR3S0S1, D3GDS0S0S1, D3GDS0S1S1, D3GDS0S1S2, zero_mul, mul_zero, add_zero, zero_add, sub_zero]
  refine HasDerivAt.congr_deriv (by hdq) ?_
  ring

lemma c_D2GDS0S2 {t p r0 r1 r2 r3 s0 s1 s2 xfe2tet xfe2oct : ℝ → ℝ} {v dt dp dr0 dr1 dr2 dr3 ds0 ds1 ds2 : ℝ} (ht :
    HasDerivAt t dt v) (hp : HasDerivAt p dp v) (hr0 : HasDerivAt r0 dr0 v) (hr1 : HasDerivAt r1 dr1 v) (hr2 :
    HasDerivAt r2 dr2 v) (hr3 : HasDerivAt r3 dr3 v) (hs0 : HasDerivAt s0 ds0 v) (hs1 : HasDerivAt s1 ds1 v)
    (hs2 : HasDerivAt s2 ds2 v) (hxfe2tet : HasDerivAt xfe2tet ((-(1) / 2) * dr0 + 1 * dr1 + 1 * dr2 + (-(1) /
    2) * ds0 + 1 * ds1 + 1 * ds2) v) (pxfe2tet : 0 < xfe2tet v) (hxfe2oct : HasDerivAt xfe2oct ((-(1) / 4) * dr0
    + (-(1) / 2) * dr1 + (1 / 4) * ds0 + (-(1) / 2) * ds1 + (-(1) / 2) * ds2) v) (pxfe2oct : 0 < xfe2oct v) :
    HasDerivAt (fun v => D2GDS0S2 (t v) (xfe2tet v) (xfe2oct v))
    (((D3GDR0S0S2 (t v) (xfe2tet v) (xfe2oct v)) * dr0 + (D3GDR1S0S2 (t v) (xfe2tet v) (xfe2oct v)) * dr1 +
    (D3GDR2S0S2 (t v) (xfe2tet v)) * dr2 + D3GDR3S0S2 * dr3) + ((D3GDS0S2DT (xfe2tet v) (xfe2oct v)) * dt +
    D3GDS0S2DP * dp) + ((D3GDS0S0S2 (t v) (xfe2tet v) (xfe2oct v)) * ds0 + (D3GDS0S1S2 (t v) (xfe2tet v)
    (xfe2oct v)) * ds1 + (D3GDS0S2S2 (t v) (xfe2tet v) (xfe2oct v)) * ds2)) v := by
  have nxfe2tet := pxfe2tet.ne'
  have nxfe2oct := pxfe2oct.ne'
  try simp only [D2GDS0S2, D3GDS0S2DT, D3GDS0S2DP, D3GDR0S0S2, D3GDR1S0S2, D3GDR2S0S2, D3GDR3S0S2, D3GDS0S0S2, D3GDS0S1S2, D3GDS0S2S2, zero_mul, mul_zero, add_zero, zero_add, sub_zero]
  refine HasDerivAt.congr_deriv (by hdq) ?_
  ring

lemma c_D2GDS0DT {t p r0 r1 r2 r3 s0 s1 s2 xmg2tet xfe2tet xmg2oct xfe2oct : ℝ → ℝ} {v dt dp dr0 dr1 dr2 dr3 ds0 ds1 ds2 : ℝ}
    (ht : HasDerivAt t dt v) (hp : HasDerivAt p dp v) (hr0 : HasDerivAt r0 dr0 v) (hr1 : HasDerivAt r1 dr1 v)
    (hr2 : HasDerivAt r2 dr2 v) (hr3 : HasDerivAt r3 dr3 v) (hs0 : HasDerivAt s0 ds0 v) (hs1 : HasDerivAt s1 ds1
    v) (hs2 : HasDerivAt s2 ds2 v) (hxmg2tet : HasDerivAt xmg2tet ((1 / 2) * dr0 + (1 / 2) * ds0) v) (pxmg2tet :
    0 < xmg2tet v) (hxfe2tet : HasDerivAt xfe2tet ((-(1) / 2) * dr0 + 1 * dr1 + 1 * dr2 + (-(1) / 2) * ds0 + 1 *
    ds1 + 1 * ds2) v) (pxfe2tet : 0 < xfe2tet v) (hxmg2oct : HasDerivAt xmg2oct ((1 / 4) * dr0 + (-(1) / 4) *
    ds0) v) (pxmg2oct : 0 < xmg2oct v) (hxfe2oct : HasDerivAt xfe2oct ((-(1) / 4) * dr0 + (-(1) / 2) * dr1 + (1
    / 4) * ds0 + (-(1) / 2) * ds1 + (-(1) / 2) * ds2) v) (pxfe2oct : 0 < xfe2oct v) :
    HasDerivAt (fun v => D2GDS0DT (xmg2tet v) (xfe2tet v) (xmg2oct v) (xfe2oct v))
    (((D3GDR0S0DT (xmg2tet v) (xfe2tet v) (xmg2oct v) (xfe2oct v)) * dr0 + (D3GDR1S0DT (xfe2tet v) (xfe2oct v)) *
    dr1 + (D3GDR2S0DT (xfe2tet v)) * dr2 + D3GDR3S0DT * dr3) + (D3GDS0DT2 * dt + D3GDS0DTDP * dp) + ((D3GDS0S0DT
    (xmg2tet v) (xfe2tet v) (xmg2oct v) (xfe2oct v)) * ds0 + (D3GDS0S1DT (xfe2tet v) (xfe2oct v)) * ds1 +
    (D3GDS0S2DT (xfe2tet v) (xfe2oct v)) * ds2)) v := by
  have nxmg2tet := pxmg2tet.ne'
  have nxfe2tet := pxfe2tet.ne'
  have nxmg2oct := pxmg2oct.ne'
  have nxfe2oct := pxfe2oct.ne'
  try simp only [D2GDS0DT, D3GDS0DT2, D3GDS0DTDP, D3GDR0S0DT, D3GDR1S0DT, D3GDR2S0DT, D3GDR3S0DT, D3GDS0S0DT, D3GDS0S1DT, D3GDS0S2DT, zero_mul, mul_zero, add_zero, zero_add, sub_zero]
  refine HasDerivAt.congr_deriv (by hdq) ?_
  try simp only [log2 nxmg2tet nxfe2tet, log2 nxfe2oct nxmg2oct]
  ring

lemma c_D2GDS0DP {t p r0 r1 r2 r3 s0 s1 s2 : ℝ → ℝ} {v dt dp dr0 dr1 dr2 dr3 ds0 ds1 ds2 : ℝ} (ht : HasDerivAt t dt v) (hp :
    HasDerivAt p dp v) (hr0 : HasDerivAt r0 dr0 v) (hr1 : HasDerivAt r1 dr1 v) (hr2 : HasDerivAt r2 dr2 v) (hr3
    : HasDerivAt r3 dr3 v) (hs0 : HasDerivAt s0 ds0 v) (hs1 : HasDerivAt s1 ds1 v) (hs2 : HasDerivAt s2 ds2 v) :
    HasDerivAt (fun v => D2GDS0DP)
    ((D3GDR0S0DP * dr0 + D3GDR1S0DP * dr1 + D3GDR2S0DP * dr2 + D3GDR3S0DP * dr3) + (D3GDS0DTDP * dt + D3GDS0DP2 *
    dp) + (D3GDS0S0DP * ds0 + D3GDS0S1DP * ds1 + D3GDS0S2DP * ds2)) v := by
  try simp only [D2GDS0DP, D3GDS0DTDP, D3GDS0DP2, D3GDR0S0DP, D3GDR1S0DP, D3GDR2S0DP, D3GDR3S0DP, D3GDS0S0DP, D3GDS0S1DP, D3GDS0S2DP, zero_mul, mul_zero, add_zero, zero_add, sub_zero]
  refine HasDerivAt.congr_deriv (by hdq) ?_
  ring

lemma c_D2GDS1S1 {t p r0 r1 r2 r3 s0 s1 s2 xfe2tet xal3tet xfe2oct xal3oct : ℝ → ℝ} {v dt dp dr0 dr1 dr2 dr3 ds0 ds1 ds2 : ℝ}
    (ht : HasDerivAt t dt v) (hp : HasDerivAt p dp v) (hr0 : HasDerivAt r0 dr0 v) (hr1 : HasDerivAt r1 dr1 v)
    (hr2 : HasDerivAt r2 dr2 v) (hr3 : HasDerivAt r3 dr3 v) (hs0 : HasDerivAt s0 ds0 v) (hs1 : HasDerivAt s1 ds1
    v) (hs2 : HasDerivAt s2 ds2 v) (hxfe2tet : HasDerivAt xfe2tet ((-(1) / 2) * dr0 + 1 * dr1 + 1 * dr2 + (-(1)
    / 2) * ds0 + 1 * ds1 + 1 * ds2) v) (pxfe2tet : 0 < xfe2tet v) (hxal3tet : HasDerivAt xal3tet ((-1) * dr1 +
    (-1) * dr2 + (-1) * dr3 + (-1) * ds1) v) (pxal3tet : 0 < xal3tet v) (hxfe2oct : HasDerivAt xfe2oct ((-(1) /
    4) * dr0 + (-(1) / 2) * dr1 + (1 / 4) * ds0 + (-(1) / 2) * ds1 + (-(1) / 2) * ds2) v) (pxfe2oct : 0 <
    xfe2oct v) (hxal3oct : HasDerivAt xal3oct ((-(1) / 2) * dr1 + (-(1) / 2) * dr2 + (-(1) / 2) * dr3 + (1 / 2)
    * ds1) v) (pxal3oct : 0 < xal3oct v) :
    HasDerivAt (fun v => D2GDS1S1 (t v) (xfe2tet v) (xal3tet v) (xfe2oct v) (xal3oct v))
    (((D3GDR0S1S1 (t v) (xfe2tet v) (xfe2oct v)) * dr0 + (D3GDR1S1S1 (t v) (xfe2tet v) (xal3tet v) (xfe2oct v)
    (xal3oct v)) * dr1 + (D3GDR2S1S1 (t v) (xfe2tet v) (xal3tet v) (xal3oct v)) * dr2 + (D3GDR3S1S1 (t v)
    (xal3tet v) (xal3oct v)) * dr3) + ((D3GDS1S1DT (xfe2tet v) (xal3tet v) (xfe2oct v) (xal3oct v)) * dt +
    D3GDS1S1DP * dp) + ((D3GDS0S1S1 (t v) (xfe2tet v) (xfe2oct v)) * ds0 + (D3GDS1S1S1 (t v) (xfe2tet v)
    (xal3tet v) (xfe2oct v) (xal3oct v)) * ds1 + (D3GDS1S1S2 (t v) (xfe2tet v) (xfe2oct v)) * ds2)) v := by
  have nxfe2tet := pxfe2tet.ne'
  have nxal3tet := pxal3tet.ne'
  have nxfe2oct := pxfe2oct.ne'
  have nxal3oct := pxal3oct.ne'
  try simp only [D2GDS1S1, D3GDS1S1DT, D3GDS1S1DP, D3GDR0S1S1, D3GDR1S1S1, D3GDR2S1S1, D3GDR3S1S1, D3GDS0S1S1, D3GDS1S1S1, D3GDS1S1S2, zero_mul, mul_zero, add_zero, zero_add, sub_zero]
  refine HasDerivAt.congr_deriv (by hdq) ?_
  ring

lemma c_D2GDS1S2 {t p r0 r1 r2 r3 s0 s1 s2 xfe2tet xfe2oct : ℝ → ℝ} {v dt dp dr0 dr1 dr2 dr3 ds0 ds1 ds2 : ℝ} (ht :
    HasDerivAt t dt v) (hp : HasDerivAt p dp v) (hr0 : HasDerivAt r0 dr0 v) (hr1 : HasDerivAt r1 dr1 v) (hr2 :
    HasDerivAt r2 dr2 v) (hr3 : HasDerivAt r3 dr3 v) (hs0 : HasDerivAt s0 ds0 v) (hs1 : HasDerivAt s1 ds1 v)
    (hs2 : HasDerivAt s2 ds2 v) (hxfe2tet : HasDerivAt xfe2tet ((-(1) / 2) * dr0 + 1 * dr1 + 1 * dr2 + (-(1) /
    2) * ds0 + 1 * ds1 + 1 * ds2) v) (pxfe2tet : 0 < xfe2tet v) (hxfe2oct : HasDerivAt xfe2oct ((-(1) / 4) * dr0
    + (-(1) / 2) * dr1 + (1 / 4) * ds0 + (-(1) / 2) * ds1 + (-(1) / 2) * ds2) v) (pxfe2oct : 0 < xfe2oct v) :
    HasDerivAt (fun v => D2GDS1S2 (t v) (xfe2tet v) (xfe2oct v))
    (((D3GDR0S1S2 (t v) (xfe2tet v) (xfe2oct v)) * dr0 + (D3GDR1S1S2 (t v) (xfe2tet v) (xfe2oct v)) * dr1 +
    (D3GDR2S1S2 (t v) (xfe2tet v)) * dr2 + D3GDR3S1S2 * dr3) + ((D3GDS1S2DT (xfe2tet v) (xfe2oct v)) * dt +
    D3GDS1S2DP * dp) + ((D3GDS0S1S2 (t v) (xfe2tet v) (xfe2oct v)) * ds0 + (D3GDS1S1S2 (t v) (xfe2tet v)
    (xfe2oct v)) * ds1 + (D3GDS1S2S2 (t v) (xfe2tet v) (xfe2oct v)) * ds2)) v := by
  have nxfe2tet := pxfe2tet.ne'
  have nxfe2oct := pxfe2oct.ne'
  try simp only [D2GDS1S2, D3GDS1S2DT, D3GDS1S2DP, D3GDR0S1S2, D3GDR1S1S2, D3GDR2S1S2, D3GDR3S1S2, D3GDS0S1S2, D3GDS1S1S2, D3GDS1S2S2, zero_mul, mul_zero, add_zero, zero_add, sub_zero]
  refine HasDerivAt.congr_deriv (by hdq) ?_
  ring

lemma c_D2GDS1DT {t p r0 r1 r2 r3 s0 s1 s2 xfe2tet xal3tet xfe2oct xal3oct : ℝ → ℝ} {v dt dp dr0 dr1 dr2 dr3 ds0 ds1 ds2 : ℝ}
    (ht : HasDerivAt t dt v) (hp : HasDerivAt p dp v) (hr0 : HasDerivAt r0 dr0 v) (hr1 : HasDerivAt r1 dr1 v)
    (hr2 : HasDerivAt r2 dr2 v) (hr3 : HasDerivAt r3 dr3 v) (hs0 : HasDerivAt s0 ds0 v) (hs1 : HasDerivAt s1 ds1
    v) (hs2 : HasDerivAt s2 ds2 v) (hxfe2tet : HasDerivAt xfe2tet ((-(1) / 2) * dr0 + 1 * dr1 + 1 * dr2 + (-(1)
    / 2) * ds0 + 1 * ds1 + 1 * ds2) v) (pxfe2tet : 0 < xfe2tet v) (hxal3tet : HasDerivAt xal3tet ((-1) * dr1 +
    (-1) * dr2 + (-1) * dr3 + (-1) * ds1) v) (pxal3tet : 0 < xal3tet v) (hxfe2oct : HasDerivAt xfe2oct ((-(1) /
    4) * dr0 + (-(1) / 2) * dr1 + (1 / 4) * ds0 + (-(1) / 2) * ds1 + (-(1) / 2) * ds2) v) (pxfe2oct : 0 <
    xfe2oct v) (hxal3oct : HasDerivAt xal3oct ((-(1) / 2) * dr1 + (-(1) / 2) * dr2 + (-(1) / 2) * dr3 + (1 / 2)
    * ds1) v) (pxal3oct : 0 < xal3oct v) :
    HasDerivAt (fun v => D2GDS1DT (xfe2tet v) (xal3tet v) (xfe2oct v) (xal3oct v))
    (((D3GDR0S1DT (xfe2tet v) (xfe2oct v)) * dr0 + (D3GDR1S1DT (xfe2tet v) (xal3tet v) (xfe2oct v) (xal3oct v)) *
    dr1 + (D3GDR2S1DT (xfe2tet v) (xal3tet v) (xal3oct v)) * dr2 + (D3GDR3S1DT (xal3tet v) (xal3oct v)) * dr3) +
    (D3GDS1DT2 * dt + D3GDS1DTDP * dp) + ((D3GDS0S1DT (xfe2tet v) (xfe2oct v)) * ds0 + (D3GDS1S1DT (xfe2tet v)
    (xal3tet v) (xfe2oct v) (xal3oct v)) * ds1 + (D3GDS1S2DT (xfe2tet v) (xfe2oct v)) * ds2)) v := by
  have nxfe2tet := pxfe2tet.ne'
  have nxal3tet := pxal3tet.ne'
  have nxfe2oct := pxfe2oct.ne'
  have nxal3oct := pxal3oct.ne'
  try simp only [D2GDS1DT, D3GDS1DT2, D3GDS1DTDP, D3GDR0S1DT, D3GDR1S1DT, D3GDR2S1DT, D3GDR3S1DT, D3GDS0S1DT, D3GDS1S1DT, D3GDS1S2DT, zero_mul, mul_zero, add_zero, zero_add, sub_zero]
  refine HasDerivAt.congr_deriv (by hdq) ?_
  try simp only [log2 nxfe2tet nxal3tet, log2 nxal3oct nxfe2oct]
  ring

lemma c_D2GDS1DP {t p r0 r1 r2 r3 s0 s1 s2 : ℝ → ℝ} {v dt dp dr0 dr1 dr2 dr3 ds0 ds1 ds2 : ℝ} (ht : HasDerivAt t dt v) (hp :
    HasDerivAt p dp v) (hr0 : HasDerivAt r0 dr0 v) (hr1 : HasDerivAt r1 dr1 v) (hr2 : HasDerivAt r2 dr2 v) (hr3
    : HasDerivAt r3 dr3 v) (hs0 : HasDerivAt s0 ds0 v) (hs1 : HasDerivAt s1 ds1 v) (hs2 : HasDerivAt s2 ds2 v) :
    HasDerivAt (fun v => D2GDS1DP)
    ((D3GDR0S1DP * dr0 + D3GDR1S1DP * dr1 + D3GDR2S1DP * dr2 + D3GDR3S1DP * dr3) + (D3GDS1DTDP * dt + D3GDS1DP2 *
    dp) + (D3GDS0S1DP * ds0 + D3GDS1S1DP * ds1 + D3GDS1S2DP * ds2)) v := by
  try simp only [D2GDS1DP, D3GDS1DTDP, D3GDS1DP2, D3GDR0S1DP, D3GDR1S1DP, D3GDR2S1DP, D3GDR3S1DP, D3GDS0S1DP, D3GDS1S1DP, D3GDS1S2DP, zero_mul, mul_zero, add_zero, zero_add, sub_zero]
  refine HasDerivAt.congr_deriv (by hdq) ?_
  ring

lemma c_D2GDS2S2 {t p r0 r1 r2 r3 s0 s1 s2 xfe2tet xfe3tet xfe2oct xfe3oct : ℝ → ℝ} {v dt dp dr0 dr1 dr2 dr3 ds0 ds1 ds2 : ℝ}
    (ht : HasDerivAt t dt v) (hp : HasDerivAt p dp v) (hr0 : HasDerivAt r0 dr0 v) (hr1 : HasDerivAt r1 dr1 v)
    (hr2 : HasDerivAt r2 dr2 v) (hr3 : HasDerivAt r3 dr3 v) (hs0 : HasDerivAt s0 ds0 v) (hs1 : HasDerivAt s1 ds1
    v) (hs2 : HasDerivAt s2 ds2 v) (hxfe2tet : HasDerivAt xfe2tet ((-(1) / 2) * dr0 + 1 * dr1 + 1 * dr2 + (-(1)
    / 2) * ds0 + 1 * ds1 + 1 * ds2) v) (pxfe2tet : 0 < xfe2tet v) (hxfe3tet : HasDerivAt xfe3tet (1 * dr3 + (-1)
    * ds2) v) (pxfe3tet : 0 < xfe3tet v) (hxfe2oct : HasDerivAt xfe2oct ((-(1) / 4) * dr0 + (-(1) / 2) * dr1 +
    (1 / 4) * ds0 + (-(1) / 2) * ds1 + (-(1) / 2) * ds2) v) (pxfe2oct : 0 < xfe2oct v) (hxfe3oct : HasDerivAt
    xfe3oct ((1 / 2) * dr3 + (1 / 2) * ds2) v) (pxfe3oct : 0 < xfe3oct v) :
    HasDerivAt (fun v => D2GDS2S2 (t v) (xfe2tet v) (xfe3tet v) (xfe2oct v) (xfe3oct v))
    (((D3GDR0S2S2 (t v) (xfe2tet v) (xfe2oct v)) * dr0 + (D3GDR1S2S2 (t v) (xfe2tet v) (xfe2oct v)) * dr1 +
    (D3GDR2S2S2 (t v) (xfe2tet v)) * dr2 + (D3GDR3S2S2 (t v) (xfe3tet v) (xfe3oct v)) * dr3) + ((D3GDS2S2DT
    (xfe2tet v) (xfe3tet v) (xfe2oct v) (xfe3oct v)) * dt + D3GDS2S2DP * dp) + ((D3GDS0S2S2 (t v) (xfe2tet v)
    (xfe2oct v)) * ds0 + (D3GDS1S2S2 (t v) (xfe2tet v) (xfe2oct v)) * ds1 + (D3GDS2S2S2 (t v) (xfe2tet v)
    (xfe3tet v) (xfe2oct v) (xfe3oct v)) * ds2)) v := by
  have nxfe2tet := pxfe2tet.ne'
  have nxfe3tet := pxfe3tet.ne'
  have nxfe2oct := pxfe2oct.ne'
  have nxfe3oct := pxfe3oct.ne'
  try simp only [D2GDS2S2, D3GDS2S2DT, D3GDS2S2DP, D3GDR0S2S2, D3GDR1S2S2, D3GDR2S2S2, D3GDR3S2S2, D3GDS0S2S2, D3GDS1S2S2, D3GDS2S2S2, zero_mul, mul_zero, add_zero, zero_add, sub_zero]
  refine HasDerivAt.congr_deriv (by hdq) ?_
  ring

lemma c_D2GDS2DT {t p r0 r1 r2 r3 s0 s1 s2 xfe2tet xfe3tet xfe2oct xfe3oct : ℝ → ℝ} {v dt dp dr0 dr1 dr2 dr3 ds0 ds1 ds2 : ℝ}
    (ht : HasDerivAt t dt v) (hp : HasDerivAt p dp v) (hr0 : HasDerivAt r0 dr0 v) (hr1 : HasDerivAt r1 dr1 v)
    (hr2 : HasDerivAt r2 dr2 v) (hr3 : HasDerivAt r3 dr3 v) (hs0 : HasDerivAt s0 ds0 v) (hs1 : HasDerivAt s1 ds1
    v) (hs2 : HasDerivAt s2 ds2 v) (hxfe2tet : HasDerivAt xfe2tet ((-(1) / 2) * dr0 + 1 * dr1 + 1 * dr2 + (-(1)
    / 2) * ds0 + 1 * ds1 + 1 * ds2) v) (pxfe2tet : 0 < xfe2tet v) (hxfe3tet : HasDerivAt xfe3tet (1 * dr3 + (-1)
    * ds2) v) (pxfe3tet : 0 < xfe3tet v) (hxfe2oct : HasDerivAt xfe2oct ((-(1) / 4) * dr0 + (-(1) / 2) * dr1 +
    (1 / 4) * ds0 + (-(1) / 2) * ds1 + (-(1) / 2) * ds2) v) (pxfe2oct : 0 < xfe2oct v) (hxfe3oct : HasDerivAt
    xfe3oct ((1 / 2) * dr3 + (1 / 2) * ds2) v) (pxfe3oct : 0 < xfe3oct v) :
    HasDerivAt (fun v => D2GDS2DT (xfe2tet v) (xfe3tet v) (xfe2oct v) (xfe3oct v))
    (((D3GDR0S2DT (xfe2tet v) (xfe2oct v)) * dr0 + (D3GDR1S2DT (xfe2tet v) (xfe2oct v)) * dr1 + (D3GDR2S2DT
    (xfe2tet v)) * dr2 + (D3GDR3S2DT (xfe3tet v) (xfe3oct v)) * dr3) + (D3GDS2DT2 * dt + D3GDS2DTDP * dp) +
    ((D3GDS0S2DT (xfe2tet v) (xfe2oct v)) * ds0 + (D3GDS1S2DT (xfe2tet v) (xfe2oct v)) * ds1 + (D3GDS2S2DT
    (xfe2tet v) (xfe3tet v) (xfe2oct v) (xfe3oct v)) * ds2)) v := by
  have nxfe2tet := pxfe2tet.ne'
  have nxfe3tet := pxfe3tet.ne'
  have nxfe2oct := pxfe2oct.ne'
  have nxfe3oct := pxfe3oct.ne'
  try simp only [D2GDS2DT, D3GDS2DT2, D3GDS2DTDP, D3GDR0S2DT, D3GDR1S2DT, D3GDR2S2DT, D3GDR3S2DT, D3GDS0S2DT, D3GDS1S2DT, D3GDS2S2DT, zero_mul, mul_zero, add_zero, zero_add, sub_zero]
  refine HasDerivAt.congr_deriv (by hdq) ?_
  try simp only [log2 nxfe2tet nxfe3tet, log2 nxfe3oct nxfe2oct]
  ring

lemma c_D2GDS2DP {t p r0 r1 r2 r3 s0 s1 s2 : ℝ → ℝ} {v dt dp dr0 dr1 dr2 dr3 ds0 ds1 ds2 : ℝ} (ht : HasDerivAt t dt v) (hp :
    HasDerivAt p dp v) (hr0 : HasDerivAt r0 dr0 v) (hr1 : HasDerivAt r1 dr1 v) (hr2 : HasDerivAt r2 dr2 v) (hr3
    : HasDerivAt r3 dr3 v) (hs0 : HasDerivAt s0 ds0 v) (hs1 : HasDerivAt s1 ds1 v) (hs2 : HasDerivAt s2 ds2 v) :
    HasDerivAt (fun v => D2GDS2DP)
    ((D3GDR0S2DP * dr0 + D3GDR1S2DP * dr1 + D3GDR2S2DP * dr2 + D3GDR3S2DP * dr3) + (D3GDS2DTDP * dt + D3GDS2DP2 *
    dp) + (D3GDS0S2DP * ds0 + D3GDS1S2DP * ds1 + D3GDS2S2DP * ds2)) v := by
  try simp only [D2GDS2DP, D3GDS2DTDP, D3GDS2DP2, D3GDR0S2DP, D3GDR1S2DP, D3GDR2S2DP, D3GDR3S2DP, D3GDS0S2DP, D3GDS1S2DP, D3GDS2S2DP, zero_mul, mul_zero, add_zero, zero_add, sub_zero]
  refine HasDerivAt.congr_deriv (by hdq) ?_
  ring

lemma c_D2GDT2 {t p r0 r1 r2 r3 s0 s1 s2 : ℝ → ℝ} {v dt dp dr0 dr1 dr2 dr3 ds0 ds1 ds2 : ℝ} (ht : HasDerivAt t dt v) (hp :
    HasDerivAt p dp v) (hr0 : HasDerivAt r0 dr0 v) (hr1 : HasDerivAt r1 dr1 v) (hr2 : HasDerivAt r2 dr2 v) (hr3
    : HasDerivAt r3 dr3 v) (hs0 : HasDerivAt s0 ds0 v) (hs1 : HasDerivAt s1 ds1 v) (hs2 : HasDerivAt s2 ds2 v) :
    HasDerivAt (fun v => D2GDT2)
    ((D3GDR0DT2 * dr0 + D3GDR1DT2 * dr1 + D3GDR2DT2 * dr2 + D3GDR3DT2 * dr3) + (D3GDT3 * dt + D3GDT2DP * dp) +
    (D3GDS0DT2 * ds0 + D3GDS1DT2 * ds1 + D3GDS2DT2 * ds2)) v := by
  try simp only [D2GDT2, D3GDT3, D3GDT2DP, D3GDR0DT2, D3GDR1DT2, D3GDR2DT2, D3GDR3DT2, D3GDS0DT2, D3GDS1DT2, D3GDS2DT2, zero_mul, mul_zero, add_zero, zero_add, sub_zero]
  refine HasDerivAt.congr_deriv (by hdq) ?_
  ring

lemma c_D2GDTDP {t p r0 r1 r2 r3 s0 s1 s2 : ℝ → ℝ} {v dt dp dr0 dr1 dr2 dr3 ds0 ds1 ds2 : ℝ} (ht : HasDerivAt t dt v) (hp :
    HasDerivAt p dp v) (hr0 : HasDerivAt r0 dr0 v) (hr1 : HasDerivAt r1 dr1 v) (hr2 : HasDerivAt r2 dr2 v) (hr3
    : HasDerivAt r3 dr3 v) (hs0 : HasDerivAt s0 ds0 v) (hs1 : HasDerivAt s1 ds1 v) (hs2 : HasDerivAt s2 ds2 v) :
    HasDerivAt (fun v => D2GDTDP)
    ((D3GDR0DTDP * dr0 + D3GDR1DTDP * dr1 + D3GDR2DTDP * dr2 + D3GDR3DTDP * dr3) + (D3GDT2DP * dt + D3GDTDP2 *
    dp) + (D3GDS0DTDP * ds0 + D3GDS1DTDP * ds1 + D3GDS2DTDP * ds2)) v := by
  try simp only [D2GDTDP, D3GDT2DP, D3GDTDP2, D3GDR0DTDP, D3GDR1DTDP, D3GDR2DTDP, D3GDR3DTDP, D3GDS0DTDP, D3GDS1DTDP, D3GDS2DTDP, zero_mul, mul_zero, add_zero, zero_add, sub_zero]
  refine HasDerivAt.congr_deriv (by hdq) ?_
  ring

lemma c_D2GDP2 {t p r0 r1 r2 r3 s0 s1 s2 : ℝ → ℝ} {v dt dp dr0 dr1 dr2 dr3 ds0 ds1 ds2 : ℝ} (ht : HasDerivAt t dt v) (hp :
    HasDerivAt p dp v) (hr0 : HasDerivAt r0 dr0 v) (hr1 : HasDerivAt r1 dr1 v) (hr2 : HasDerivAt r2 dr2 v) (hr3
    : HasDerivAt r3 dr3 v) (hs0 : HasDerivAt s0 ds0 v) (hs1 : HasDerivAt s1 ds1 v) (hs2 : HasDerivAt s2 ds2 v) :
    HasDerivAt (fun v => D2GDP2)
    ((D3GDR0DP2 * dr0 + D3GDR1DP2 * dr1 + D3GDR2DP2 * dr2 + D3GDR3DP2 * dr3) + (D3GDTDP2 * dt + D3GDP3 * dp) +
    (D3GDS0DP2 * ds0 + D3GDS1DP2 * ds1 + D3GDS2DP2 * ds2)) v := by
  try simp only [D2GDP2, D3GDTDP2, D3GDP3, D3GDR0DP2, D3GDR1DP2, D3GDR2DP2, D3GDR3DP2, D3GDS0DP2, D3GDS1DP2, D3GDS2DP2, zero_mul, mul_zero, add_zero, zero_add, sub_zero]
  refine HasDerivAt.congr_deriv (by hdq) ?_
  ring

attribute [local irreducible] S H G DGDR0 DGDR1 DGDR2 DGDR3 DGDS0 DGDS1 DGDS2 DGDT DGDP D2GDR0R0 D2GDR0R1
    D2GDR0R2 D2GDR0S0 D2GDR0S1 D2GDR0S2 D2GDR0DT D2GDR1R1 D2GDR1R2 D2GDR1R3 D2GDR1S0 D2GDR1S1 D2GDR1S2 D2GDR1DT
    D2GDR2R2 D2GDR2R3 D2GDR2S0 D2GDR2S1 D2GDR2S2 D2GDR2DT D2GDR2DP D2GDR3R3 D2GDR3S1 D2GDR3S2 D2GDR3DT D2GDR3DP
    D2GDS0S0 D2GDS0S1 D2GDS0S2 D2GDS0DT D2GDS1S1 D2GDS1S2 D2GDS1DT D2GDS2S2 D2GDS2DT D3GDR0R0R0 D3GDR0R0R1
    D3GDR0R0R2 D3GDR0R1R1 D3GDR0R1R2 D3GDR0R2R2 D3GDR0R0S0 D3GDR0R0S1 D3GDR0R0S2 D3GDR0R0DT D3GDR0R1S0
    D3GDR0R1S1 D3GDR0R1S2 D3GDR0R1DT D3GDR0R2S0 D3GDR0R2S1 D3GDR0R2S2 D3GDR0R2DT D3GDR0S0S0 D3GDR0S0S1
    D3GDR0S0S2 D3GDR0S0DT D3GDR0S1S1 D3GDR0S1S2 D3GDR0S1DT D3GDR0S2S2 D3GDR0S2DT D3GDR1R1R1 D3GDR1R1R2
    D3GDR1R1R3 D3GDR1R2R2 D3GDR1R2R3 D3GDR1R3R3 D3GDR1R1S0 D3GDR1R1S1 D3GDR1R1S2 D3GDR1R1DT D3GDR1R2S0
    D3GDR1R2S1 D3GDR1R2S2 D3GDR1R2DT D3GDR1R3S1 D3GDR1R3DT D3GDR1S0S0 D3GDR1S0S1 D3GDR1S0S2 D3GDR1S0DT
    D3GDR1S1S1 D3GDR1S1S2 D3GDR1S1DT D3GDR1S2S2 D3GDR1S2DT D3GDR2R2R2 D3GDR2R2R3 D3GDR2R3R3 D3GDR2R2S0
    D3GDR2R2S1 D3GDR2R2S2 D3GDR2R2DT D3GDR2R2DP D3GDR2R3S1 D3GDR2R3DT D3GDR2R3DP D3GDR2S0S0 D3GDR2S0S1
    D3GDR2S0S2 D3GDR2S0DT D3GDR2S1S1 D3GDR2S1S2 D3GDR2S1DT D3GDR2S2S2 D3GDR2S2DT D3GDR3R3R3 D3GDR3R3S1
    D3GDR3R3S2 D3GDR3R3DT D3GDR3R3DP D3GDR3S1S1 D3GDR3S1DT D3GDR3S2S2 D3GDR3S2DT D3GDS0S0S0 D3GDS0S0S1
    D3GDS0S0S2 D3GDS0S0DT D3GDS0S1S1 D3GDS0S1S2 D3GDS0S1DT D3GDS0S2S2 D3GDS0S2DT D3GDS1S1S1 D3GDS1S1S2
    D3GDS1S1DT D3GDS1S2S2 D3GDS1S2DT D3GDS2S2S2 D3GDS2S2DT

lemma gr_g (y : Var 4 3 → ℝ) (hy : Dom y) :
    Gr (fun y => (tables (raw y) y).g) y ((tables (raw y) y).at1) := by
  refine Gr.of_lines ?_ fun u => ?_
  · have hp := pos y hy
    change DifferentiableAt ℝ (fun y => G (y (.inl iT)) (y (.inl iP)) (y (.inl (.inl 0))) (y (.inl (.inl 1))) (y (.inl (.inl 2))) (y (.inl (.inl 3))) (y (.inr 0)) (y (.inr 1)) (y (.inr 2)) (raw y 0) (raw y 1) (raw y 2) (raw y 3) (raw y 4) (raw y 5) (raw y 6) (raw y 7) (raw y 8) (raw y 9)) y
    have d0 := raw_diff 0 y
    have q0 := hp.1
    have n0 := q0.ne'
    have d1 := raw_diff 1 y
    have q1 := hp.2.1
    have n1 := q1.ne'
    have d2 := raw_diff 2 y
    have q2 := hp.2.2.1
    have n2 := q2.ne'
    have d3 := raw_diff 3 y
    have q3 := hp.2.2.2.1
    have n3 := q3.ne'
    have d4 := raw_diff 4 y
    have q4 := hp.2.2.2.2.1
    have n4 := q4.ne'
    have d5 := raw_diff 5 y
    have q5 := hp.2.2.2.2.2.1
    have n5 := q5.ne'
    have d6 := raw_diff 6 y
    have q6 := hp.2.2.2.2.2.2.1
    have n6 := q6.ne'
    have d7 := raw_diff 7 y
    have q7 := hp.2.2.2.2.2.2.2.1
    have n7 := q7.ne'
    have d8 := raw_diff 8 y
    have q8 := hp.2.2.2.2.2.2.2.2.1
    have n8 := q8.ne'
    have d9 := raw_diff 9 y
    have q9 := hp.2.2.2.2.2.2.2.2.2
    have n9 := q9.ne'
    try simp only [g0, gx2, gx3, gx4, gx5, H, S, G, zero_mul, mul_zero, add_zero, zero_add, sub_zero]
    ddq
  · have hp := pos y hy
    have h := c_G (hl y u ((.inl iT))) (hl y u ((.inl iP))) (hl y u ((.inl (.inl 0)))) (hl y u ((.inl (.inl
        1)))) (hl y u ((.inl (.inl 2)))) (hl y u ((.inl (.inl 3)))) (hl y u ((.inr 0))) (hl y u
        ((.inr 1))) (hl y u ((.inr 2))) (raw_line0 y u) (by simpa only [zero_mul, add_zero] using
        hp.1) (raw_line1 y u) (by simpa only [zero_mul, add_zero] using hp.2.1) (raw_line2 y u)
        (by simpa only [zero_mul, add_zero] using hp.2.2.1) (raw_line3 y u) (by simpa only
        [zero_mul, add_zero] using hp.2.2.2.1) (raw_line4 y u) (by simpa only [zero_mul, add_zero]
        using hp.2.2.2.2.1) (raw_line5 y u) (by simpa only [zero_mul, add_zero] using
        hp.2.2.2.2.2.1) (raw_line6 y u) (by simpa only [zero_mul, add_zero] using
        hp.2.2.2.2.2.2.1) (raw_line7 y u) (by simpa only [zero_mul, add_zero] using
        hp.2.2.2.2.2.2.2.1) (raw_line8 y u) (by simpa only [zero_mul, add_zero] using
        hp.2.2.2.2.2.2.2.2.1) (raw_line9 y u) (by simpa only [zero_mul, add_zero] using
        hp.2.2.2.2.2.2.2.2.2)
    try simp only [zero_mul, add_zero] at h
    refine h.congr_deriv ?_
    rw [sum_var]; simp only [Fin.sum_univ_four, Fin.sum_univ_three]; rfl

lemma gr_dgdr_0 (y : Var 4 3 → ℝ) (hy : Dom y) :
    Gr (fun y => (tables (raw y) y).dgdr 0) y ((tables (raw y) y).at2 (.inl (.inl 0))) := by
  refine Gr.of_lines ?_ fun u => ?_
  · have hp := pos y hy
    change DifferentiableAt ℝ (fun y => DGDR0 (y (.inl iT)) (y (.inl (.inl 0))) (y (.inl (.inl 1))) (y (.inl (.inl 2))) (y (.inl (.inl 3))) (y (.inr 0)) (y (.inr 1)) (y (.inr 2)) (raw y 0) (raw y 1) (raw y 4) (raw y 5)) y
    have d0 := raw_diff 0 y
    have q0 := hp.1
    have n0 := q0.ne'
    have d1 := raw_diff 1 y
    have q1 := hp.2.1
    have n1 := q1.ne'
    have d4 := raw_diff 4 y
    have q4 := hp.2.2.2.2.1
    have n4 := q4.ne'
    have d5 := raw_diff 5 y
    have q5 := hp.2.2.2.2.2.1
    have n5 := q5.ne'
    try simp only [gx2, DGDR0, zero_mul, mul_zero, add_zero, zero_add, sub_zero]
    ddq
  · have hp := pos y hy
    have h := c_DGDR0 (hl y u ((.inl iT))) (hl y u ((.inl iP))) (hl y u ((.inl (.inl 0)))) (hl y u ((.inl (.inl
        1)))) (hl y u ((.inl (.inl 2)))) (hl y u ((.inl (.inl 3)))) (hl y u ((.inr 0))) (hl y u
        ((.inr 1))) (hl y u ((.inr 2))) (raw_line0 y u) (by simpa only [zero_mul, add_zero] using
        hp.1) (raw_line1 y u) (by simpa only [zero_mul, add_zero] using hp.2.1) (raw_line4 y u)
        (by simpa only [zero_mul, add_zero] using hp.2.2.2.2.1) (raw_line5 y u) (by simpa only
        [zero_mul, add_zero] using hp.2.2.2.2.2.1)
    try simp only [zero_mul, add_zero] at h
    refine h.congr_deriv ?_
    rw [sum_var]; simp only [Fin.sum_univ_four, Fin.sum_univ_three]; rfl

lemma gr_dgdr_1 (y : Var 4 3 → ℝ) (hy : Dom y) :
    Gr (fun y => (tables (raw y) y).dgdr 1) y ((tables (raw y) y).at2 (.inl (.inl 1))) := by
  refine Gr.of_lines ?_ fun u => ?_
  · have hp := pos y hy
    change DifferentiableAt ℝ (fun y => DGDR1 (y (.inl iT)) (y (.inl (.inl 0))) (y (.inl (.inl 1))) (y (.inl (.inl 2))) (y (.inl (.inl 3))) (y (.inr 0)) (y (.inr 1)) (y (.inr 2)) (raw y 1) (raw y 2) (raw y 5) (raw y 6) (raw y 8)) y
    have d1 := raw_diff 1 y
    have q1 := hp.2.1
    have n1 := q1.ne'
    have d2 := raw_diff 2 y
    have q2 := hp.2.2.1
    have n2 := q2.ne'
    have d5 := raw_diff 5 y
    have q5 := hp.2.2.2.2.2.1
    have n5 := q5.ne'
    have d6 := raw_diff 6 y
    have q6 := hp.2.2.2.2.2.2.1
    have n6 := q6.ne'
    have d8 := raw_diff 8 y
    have q8 := hp.2.2.2.2.2.2.2.2.1
    have n8 := q8.ne'
    try simp only [gx3, DGDR1, zero_mul, mul_zero, add_zero, zero_add, sub_zero]
    ddq
  · have hp := pos y hy
    have h := c_DGDR1 (hl y u ((.inl iT))) (hl y u ((.inl iP))) (hl y u ((.inl (.inl 0)))) (hl y u ((.inl (.inl
        1)))) (hl y u ((.inl (.inl 2)))) (hl y u ((.inl (.inl 3)))) (hl y u ((.inr 0))) (hl y u
        ((.inr 1))) (hl y u ((.inr 2))) (raw_line1 y u) (by simpa only [zero_mul, add_zero] using
        hp.2.1) (raw_line2 y u) (by simpa only [zero_mul, add_zero] using hp.2.2.1) (raw_line5 y
        u) (by simpa only [zero_mul, add_zero] using hp.2.2.2.2.2.1) (raw_line6 y u) (by simpa
        only [zero_mul, add_zero] using hp.2.2.2.2.2.2.1) (raw_line8 y u) (by simpa only
        [zero_mul, add_zero] using hp.2.2.2.2.2.2.2.2.1)
    try simp only [zero_mul, add_zero] at h
    refine h.congr_deriv ?_
    rw [sum_var]; simp only [Fin.sum_univ_four, Fin.sum_univ_three]; rfl

lemma gr_dgdr_2 (y : Var 4 3 → ℝ) (hy : Dom y) :
    Gr (fun y => (tables (raw y) y).dgdr 2) y ((tables (raw y) y).at2 (.inl (.inl 2))) := by
  refine Gr.of_lines ?_ fun u => ?_
  · have hp := pos y hy
    change DifferentiableAt ℝ (fun y => DGDR2 (y (.inl iT)) (y (.inl iP)) (y (.inl (.inl 0))) (y (.inl (.inl 1))) (y (.inl (.inl 2))) (y (.inl (.inl 3))) (y (.inr 0)) (y (.inr 1)) (y (.inr 2)) (raw y 1) (raw y 2) (raw y 6) (raw y 9)) y
    have d1 := raw_diff 1 y
    have q1 := hp.2.1
    have n1 := q1.ne'
    have d2 := raw_diff 2 y
    have q2 := hp.2.2.1
    have n2 := q2.ne'
    have d6 := raw_diff 6 y
    have q6 := hp.2.2.2.2.2.2.1
    have n6 := q6.ne'
    have d9 := raw_diff 9 y
    have q9 := hp.2.2.2.2.2.2.2.2.2
    have n9 := q9.ne'
    try simp only [gx4, DGDR2, zero_mul, mul_zero, add_zero, zero_add, sub_zero]
    ddq
  · have hp := pos y hy
    have h := c_DGDR2 (hl y u ((.inl iT))) (hl y u ((.inl iP))) (hl y u ((.inl (.inl 0)))) (hl y u ((.inl (.inl
        1)))) (hl y u ((.inl (.inl 2)))) (hl y u ((.inl (.inl 3)))) (hl y u ((.inr 0))) (hl y u
        ((.inr 1))) (hl y u ((.inr 2))) (raw_line1 y u) (by simpa only [zero_mul, add_zero] using
        hp.2.1) (raw_line2 y u) (by simpa only [zero_mul, add_zero] using hp.2.2.1) (raw_line6 y
        u) (by simpa only [zero_mul, add_zero] using hp.2.2.2.2.2.2.1) (raw_line9 y u) (by simpa
        only [zero_mul, add_zero] using hp.2.2.2.2.2.2.2.2.2)
    try simp only [zero_mul, add_zero] at h
    refine h.congr_deriv ?_
    rw [sum_var]; simp only [Fin.sum_univ_four, Fin.sum_univ_three]; rfl

lemma gr_dgdr_3 (y : Var 4 3 → ℝ) (hy : Dom y) :
    Gr (fun y => (tables (raw y) y).dgdr 3) y ((tables (raw y) y).at2 (.inl (.inl 3))) := by
  refine Gr.of_lines ?_ fun u => ?_
  · have hp := pos y hy
    change DifferentiableAt ℝ (fun y => DGDR3 (y (.inl iT)) (y (.inl iP)) (y (.inl (.inl 0))) (y (.inl (.inl 1))) (y (.inl (.inl 2))) (y (.inl (.inl 3))) (y (.inr 0)) (y (.inr 1)) (y (.inr 2)) (raw y 2) (raw y 3) (raw y 6) (raw y 7)) y
    have d2 := raw_diff 2 y
    have q2 := hp.2.2.1
    have n2 := q2.ne'
    have d3 := raw_diff 3 y
    have q3 := hp.2.2.2.1
    have n3 := q3.ne'
    have d6 := raw_diff 6 y
    have q6 := hp.2.2.2.2.2.2.1
    have n6 := q6.ne'
    have d7 := raw_diff 7 y
    have q7 := hp.2.2.2.2.2.2.2.1
    have n7 := q7.ne'
    try simp only [gx5, DGDR3, zero_mul, mul_zero, add_zero, zero_add, sub_zero]
    ddq
  · have hp := pos y hy
    have h := c_DGDR3 (hl y u ((.inl iT))) (hl y u ((.inl iP))) (hl y u ((.inl (.inl 0)))) (hl y u ((.inl (.inl
        1)))) (hl y u ((.inl (.inl 2)))) (hl y u ((.inl (.inl 3)))) (hl y u ((.inr 0))) (hl y u
        ((.inr 1))) (hl y u ((.inr 2))) (raw_line2 y u) (by simpa only [zero_mul, add_zero] using
        hp.2.2.1) (raw_line3 y u) (by simpa only [zero_mul, add_zero] using hp.2.2.2.1) (raw_line6
        y u) (by simpa only [zero_mul, add_zero] using hp.2.2.2.2.2.2.1) (raw_line7 y u) (by simpa
        only [zero_mul, add_zero] using hp.2.2.2.2.2.2.2.1)
    try simp only [zero_mul, add_zero] at h
    refine h.congr_deriv ?_
    rw [sum_var]; simp only [Fin.sum_univ_four, Fin.sum_univ_three]; rfl

lemma gr_dgds_0 (y : Var 4 3 → ℝ) (hy : Dom y) :
    Gr (fun y => (tables (raw y) y).dgds 0) y ((tables (raw y) y).at2 (.inr 0)) := by
  refine Gr.of_lines ?_ fun u => ?_
  · have hp := pos y hy
    change DifferentiableAt ℝ (fun y => DGDS0 (y (.inl iT)) (y (.inl (.inl 0))) (y (.inl (.inl 1))) (y (.inl (.inl 2))) (y (.inl (.inl 3))) (y (.inr 0)) (y (.inr 1)) (y (.inr 2)) (raw y 0) (raw y 1) (raw y 4) (raw y 5)) y
    have d0 := raw_diff 0 y
    have q0 := hp.1
    have n0 := q0.ne'
    have d1 := raw_diff 1 y
    have q1 := hp.2.1
    have n1 := q1.ne'
    have d4 := raw_diff 4 y
    have q4 := hp.2.2.2.2.1
    have n4 := q4.ne'
    have d5 := raw_diff 5 y
    have q5 := hp.2.2.2.2.2.1
    have n5 := q5.ne'
    try simp only [DGDS0, zero_mul, mul_zero, add_zero, zero_add, sub_zero]
    ddq
  · have hp := pos y hy
    have h := c_DGDS0 (hl y u ((.inl iT))) (hl y u ((.inl iP))) (hl y u ((.inl (.inl 0)))) (hl y u ((.inl (.inl
        1)))) (hl y u ((.inl (.inl 2)))) (hl y u ((.inl (.inl 3)))) (hl y u ((.inr 0))) (hl y u
        ((.inr 1))) (hl y u ((.inr 2))) (raw_line0 y u) (by simpa only [zero_mul, add_zero] using
        hp.1) (raw_line1 y u) (by simpa only [zero_mul, add_zero] using hp.2.1) (raw_line4 y u)
        (by simpa only [zero_mul, add_zero] using hp.2.2.2.2.1) (raw_line5 y u) (by simpa only
        [zero_mul, add_zero] using hp.2.2.2.2.2.1)
    try simp only [zero_mul, add_zero] at h
    refine h.congr_deriv ?_
    rw [sum_var]; simp only [Fin.sum_univ_four, Fin.sum_univ_three]; rfl

lemma gr_dgds_1 (y : Var 4 3 → ℝ) (hy : Dom y) :
    Gr (fun y => (tables (raw y) y).dgds 1) y ((tables (raw y) y).at2 (.inr 1)) := by
  refine Gr.of_lines ?_ fun u => ?_
  · have hp := pos y hy
    change DifferentiableAt ℝ (fun y => DGDS1 (y (.inl iT)) (y (.inl (.inl 0))) (y (.inl (.inl 1))) (y (.inl (.inl 2))) (y (.inl (.inl 3))) (y (.inr 0)) (y (.inr 1)) (y (.inr 2)) (raw y 1) (raw y 2) (raw y 5) (raw y 6)) y
    have d1 := raw_diff 1 y
    have q1 := hp.2.1
    have n1 := q1.ne'
    have d2 := raw_diff 2 y
    have q2 := hp.2.2.1
    have n2 := q2.ne'
    have d5 := raw_diff 5 y
    have q5 := hp.2.2.2.2.2.1
    have n5 := q5.ne'
    have d6 := raw_diff 6 y
    have q6 := hp.2.2.2.2.2.2.1
    have n6 := q6.ne'
    try simp only [DGDS1, zero_mul, mul_zero, add_zero, zero_add, sub_zero]
    ddq
  · have hp := pos y hy
    have h := c_DGDS1 (hl y u ((.inl iT))) (hl y u ((.inl iP))) (hl y u ((.inl (.inl 0)))) (hl y u ((.inl (.inl
        1)))) (hl y u ((.inl (.inl 2)))) (hl y u ((.inl (.inl 3)))) (hl y u ((.inr 0))) (hl y u
        ((.inr 1))) (hl y u ((.inr 2))) (raw_line1 y u) (by simpa only [zero_mul, add_zero] using
        hp.2.1) (raw_line2 y u) (by simpa only [zero_mul, add_zero] using hp.2.2.1) (raw_line5 y
        u) (by simpa only [zero_mul, add_zero] using hp.2.2.2.2.2.1) (raw_line6 y u) (by simpa
        only [zero_mul, add_zero] using hp.2.2.2.2.2.2.1)
    try simp only [zero_mul, add_zero] at h
    refine h.congr_deriv ?_
    rw [sum_var]; simp only [Fin.sum_univ_four, Fin.sum_univ_three]; rfl

lemma gr_dgds_2 (y : Var 4 3 → ℝ) (hy : Dom y) :
    Gr (fun y => (tables (raw y) y).dgds 2) y ((tables (raw y) y).at2 (.inr 2)) := by
  refine Gr.of_lines ?_ fun u => ?_
  · have hp := pos y hy
    change DifferentiableAt ℝ (fun y => DGDS2 (y (.inl iT)) (y (.inl (.inl 0))) (y (.inl (.inl 1))) (y (.inl (.inl 2))) (y (.inl (.inl 3))) (y (.inr 0)) (y (.inr 1)) (y (.inr 2)) (raw y 1) (raw y 3) (raw y 5) (raw y 7)) y
    have d1 := raw_diff 1 y
    have q1 := hp.2.1
    have n1 := q1.ne'
    have d3 := raw_diff 3 y
    have q3 := hp.2.2.2.1
    have n3 := q3.ne'
    have d5 := raw_diff 5 y
    have q5 := hp.2.2.2.2.2.1
    have n5 := q5.ne'
    have d7 := raw_diff 7 y
    have q7 := hp.2.2.2.2.2.2.2.1
    have n7 := q7.ne'
    try simp only [DGDS2, zero_mul, mul_zero, add_zero, zero_add, sub_zero]
    ddq
  · have hp := pos y hy
    have h := c_DGDS2 (hl y u ((.inl iT))) (hl y u ((.inl iP))) (hl y u ((.inl (.inl 0)))) (hl y u ((.inl (.inl
        1)))) (hl y u ((.inl (.inl 2)))) (hl y u ((.inl (.inl 3)))) (hl y u ((.inr 0))) (hl y u
        ((.inr 1))) (hl y u ((.inr 2))) (raw_line1 y u) (by simpa only [zero_mul, add_zero] using
        hp.2.1) (raw_line3 y u) (by simpa only [zero_mul, add_zero] using hp.2.2.2.1) (raw_line5 y
        u) (by simpa only [zero_mul, add_zero] using hp.2.2.2.2.2.1) (raw_line7 y u) (by simpa
        only [zero_mul, add_zero] using hp.2.2.2.2.2.2.2.1)
    try simp only [zero_mul, add_zero] at h
    refine h.congr_deriv ?_
    rw [sum_var]; simp only [Fin.sum_univ_four, Fin.sum_univ_three]; rfl

lemma gr_dgdt (y : Var 4 3 → ℝ) (hy : Dom y) :
    Gr (fun y => (tables (raw y) y).dgdt) y ((tables (raw y) y).at2 (.inl iT)) := by
  refine Gr.of_lines ?_ fun u => ?_
  · have hp := pos y hy
    change DifferentiableAt ℝ (fun y => DGDT (y (.inr 2)) (raw y 0) (raw y 1) (raw y 2) (raw y 3) (raw y 4) (raw y 5) (raw y 6) (raw y 7) (raw y 8) (raw y 9)) y
    have d0 := raw_diff 0 y
    have q0 := hp.1
    have n0 := q0.ne'
    have d1 := raw_diff 1 y
    have q1 := hp.2.1
    have n1 := q1.ne'
    have d2 := raw_diff 2 y
    have q2 := hp.2.2.1
    have n2 := q2.ne'
    have d3 := raw_diff 3 y
    have q3 := hp.2.2.2.1
    have n3 := q3.ne'
    have d4 := raw_diff 4 y
    have q4 := hp.2.2.2.2.1
    have n4 := q4.ne'
    have d5 := raw_diff 5 y
    have q5 := hp.2.2.2.2.2.1
    have n5 := q5.ne'
    have d6 := raw_diff 6 y
    have q6 := hp.2.2.2.2.2.2.1
    have n6 := q6.ne'
    have d7 := raw_diff 7 y
    have q7 := hp.2.2.2.2.2.2.2.1
    have n7 := q7.ne'
    have d8 := raw_diff 8 y
    have q8 := hp.2.2.2.2.2.2.2.2.1
    have n8 := q8.ne'
    have d9 := raw_diff 9 y
    have q9 := hp.2.2.2.2.2.2.2.2.2
    have n9 := q9.ne'
    try simp only [S, DGDT, zero_mul, mul_zero, add_zero, zero_add, sub_zero]
    ddq
  · have hp := pos y hy
    have h := c_DGDT (hl y u ((.inl iT))) (hl y u ((.inl iP))) (hl y u ((.inl (.inl 0)))) (hl y u ((.inl (.inl
        1)))) (hl y u ((.inl (.inl 2)))) (hl y u ((.inl (.inl 3)))) (hl y u ((.inr 0))) (hl y u
        ((.inr 1))) (hl y u ((.inr 2))) (raw_line0 y u) (by simpa only [zero_mul, add_zero] using
        hp.1) (raw_line1 y u) (by simpa only [zero_mul, add_zero] using hp.2.1) (raw_line2 y u)
        (by simpa only [zero_mul, add_zero] using hp.2.2.1) (raw_line3 y u) (by simpa only
        [zero_mul, add_zero] using hp.2.2.2.1) (raw_line4 y u) (by simpa only [zero_mul, add_zero]
        using hp.2.2.2.2.1) (raw_line5 y u) (by simpa only [zero_mul, add_zero] using
        hp.2.2.2.2.2.1) (raw_line6 y u) (by simpa only [zero_mul, add_zero] using
        hp.2.2.2.2.2.2.1) (raw_line7 y u) (by simpa only [zero_mul, add_zero] using
        hp.2.2.2.2.2.2.2.1) (raw_line8 y u) (by simpa only [zero_mul, add_zero] using
        hp.2.2.2.2.2.2.2.2.1) (raw_line9 y u) (by simpa only [zero_mul, add_zero] using
        hp.2.2.2.2.2.2.2.2.2)
    try simp only [zero_mul, add_zero] at h
    refine h.congr_deriv ?_
    rw [sum_var]; simp only [Fin.sum_univ_four, Fin.sum_univ_three]; rfl

lemma gr_dgdp (y : Var 4 3 → ℝ) (hy : Dom y) :
    Gr (fun y => (tables (raw y) y).dgdp) y ((tables (raw y) y).at2 (.inl iP)) := by
  refine Gr.of_lines ?_ fun u => ?_
  · have hp := pos y hy
    change DifferentiableAt ℝ (fun y => DGDP (y (.inl (.inl 2))) (y (.inl (.inl 3)))) y
    try simp only [DGDP, zero_mul, mul_zero, add_zero, zero_add, sub_zero]
    ddq
  · have hp := pos y hy
    have h := c_DGDP (hl y u ((.inl iT))) (hl y u ((.inl iP))) (hl y u ((.inl (.inl 0)))) (hl y u ((.inl (.inl
        1)))) (hl y u ((.inl (.inl 2)))) (hl y u ((.inl (.inl 3)))) (hl y u ((.inr 0))) (hl y u
        ((.inr 1))) (hl y u ((.inr 2)))
    try simp only [zero_mul, add_zero] at h
    refine h.congr_deriv ?_
    rw [sum_var]; simp only [Fin.sum_univ_four, Fin.sum_univ_three]; rfl

lemma gr_d2gdr2_0_0 (y : Var 4 3 → ℝ) (hy : Dom y) :
    Gr (fun y => (tables (raw y) y).d2gdr2 0 0) y ((tables (raw y) y).at3 (.inl (.inl 0)) (.inl (.inl 0))) := by
  refine Gr.of_lines ?_ fun u => ?_
  · have hp := pos y hy
    change DifferentiableAt ℝ (fun y => D2GDR0R0 (y (.inl iT)) (raw y 0) (raw y 1) (raw y 4) (raw y 5)) y
    have d0 := raw_diff 0 y
    have q0 := hp.1
    have n0 := q0.ne'
    have d1 := raw_diff 1 y
    have q1 := hp.2.1
    have n1 := q1.ne'
    have d4 := raw_diff 4 y
    have q4 := hp.2.2.2.2.1
    have n4 := q4.ne'
    have d5 := raw_diff 5 y
    have q5 := hp.2.2.2.2.2.1
    have n5 := q5.ne'
    try simp only [D2GDR0R0, zero_mul, mul_zero, add_zero, zero_add, sub_zero]
    ddq
  · have hp := pos y hy
    have h := c_D2GDR0R0 (hl y u ((.inl iT))) (hl y u ((.inl iP))) (hl y u ((.inl (.inl 0)))) (hl y u ((.inl (.inl
        1)))) (hl y u ((.inl (.inl 2)))) (hl y u ((.inl (.inl 3)))) (hl y u ((.inr 0))) (hl y u
        ((.inr 1))) (hl y u ((.inr 2))) (raw_line0 y u) (by simpa only [zero_mul, add_zero] using
        hp.1) (raw_line1 y u) (by simpa only [zero_mul, add_zero] using hp.2.1) (raw_line4 y u)
        (by simpa only [zero_mul, add_zero] using hp.2.2.2.2.1) (raw_line5 y u) (by simpa only
        [zero_mul, add_zero] using hp.2.2.2.2.2.1)
    try simp only [zero_mul, add_zero] at h
    refine h.congr_deriv ?_
    rw [sum_var]; simp only [Fin.sum_univ_four, Fin.sum_univ_three]; rfl

lemma gr_d2gdr2_0_1 (y : Var 4 3 → ℝ) (hy : Dom y) :
    Gr (fun y => (tables (raw y) y).d2gdr2 0 1) y ((tables (raw y) y).at3 (.inl (.inl 0)) (.inl (.inl 1))) := by
  refine Gr.of_lines ?_ fun u => ?_
  · have hp := pos y hy
    change DifferentiableAt ℝ (fun y => D2GDR0R1 (y (.inl iT)) (raw y 1) (raw y 5)) y
    have d1 := raw_diff 1 y
    have q1 := hp.2.1
    have n1 := q1.ne'
    have d5 := raw_diff 5 y
    have q5 := hp.2.2.2.2.2.1
    have n5 := q5.ne'
    try simp only [D2GDR0R1, zero_mul, mul_zero, add_zero, zero_add, sub_zero]
    ddq
  · have hp := pos y hy
    have h := c_D2GDR0R1 (hl y u ((.inl iT))) (hl y u ((.inl iP))) (hl y u ((.inl (.inl 0)))) (hl y u ((.inl (.inl
        1)))) (hl y u ((.inl (.inl 2)))) (hl y u ((.inl (.inl 3)))) (hl y u ((.inr 0))) (hl y u
        ((.inr 1))) (hl y u ((.inr 2))) (raw_line1 y u) (by simpa only [zero_mul, add_zero] using
        hp.2.1) (raw_line5 y u) (by simpa only [zero_mul, add_zero] using hp.2.2.2.2.2.1)
    try simp only [zero_mul, add_zero] at h
    refine h.congr_deriv ?_
    rw [sum_var]; simp only [Fin.sum_univ_four, Fin.sum_univ_three]; rfl

lemma gr_d2gdr2_0_2 (y : Var 4 3 → ℝ) (hy : Dom y) :
    Gr (fun y => (tables (raw y) y).d2gdr2 0 2) y ((tables (raw y) y).at3 (.inl (.inl 0)) (.inl (.inl 2))) := by
  refine Gr.of_lines ?_ fun u => ?_
  · have hp := pos y hy
    change DifferentiableAt ℝ (fun y => D2GDR0R2 (y (.inl iT)) (raw y 1)) y
    have d1 := raw_diff 1 y
    have q1 := hp.2.1
    have n1 := q1.ne'
    try simp only [D2GDR0R2, zero_mul, mul_zero, add_zero, zero_add, sub_zero]
    ddq
  · have hp := pos y hy
    have h := c_D2GDR0R2 (hl y u ((.inl iT))) (hl y u ((.inl iP))) (hl y u ((.inl (.inl 0)))) (hl y u ((.inl (.inl
        1)))) (hl y u ((.inl (.inl 2)))) (hl y u ((.inl (.inl 3)))) (hl y u ((.inr 0))) (hl y u
        ((.inr 1))) (hl y u ((.inr 2))) (raw_line1 y u) (by simpa only [zero_mul, add_zero] using
        hp.2.1)
    try simp only [zero_mul, add_zero] at h
    refine h.congr_deriv ?_
    rw [sum_var]; simp only [Fin.sum_univ_four, Fin.sum_univ_three]; rfl

lemma gr_d2gdr2_0_3 (y : Var 4 3 → ℝ) (hy : Dom y) :
    Gr (fun y => (tables (raw y) y).d2gdr2 0 3) y ((tables (raw y) y).at3 (.inl (.inl 0)) (.inl (.inl 3))) := by
  refine Gr.of_lines ?_ fun u => ?_
  · have hp := pos y hy
    change DifferentiableAt ℝ (fun y => D2GDR0R3) y
    try simp only [D2GDR0R3, zero_mul, mul_zero, add_zero, zero_add, sub_zero]
    ddq
  · have hp := pos y hy
    have h := c_D2GDR0R3 (hl y u ((.inl iT))) (hl y u ((.inl iP))) (hl y u ((.inl (.inl 0)))) (hl y u ((.inl (.inl
        1)))) (hl y u ((.inl (.inl 2)))) (hl y u ((.inl (.inl 3)))) (hl y u ((.inr 0))) (hl y u
        ((.inr 1))) (hl y u ((.inr 2)))
    try simp only [zero_mul, add_zero] at h
    refine h.congr_deriv ?_
    rw [sum_var]; simp only [Fin.sum_univ_four, Fin.sum_univ_three]; rfl

lemma gr_d2gdrds_0_0 (y : Var 4 3 → ℝ) (hy : Dom y) :
    Gr (fun y => (tables (raw y) y).d2gdrds 0 0) y ((tables (raw y) y).at3 (.inl (.inl 0)) (.inr 0)) := by
  refine Gr.of_lines ?_ fun u => ?_
  · have hp := pos y hy
    change DifferentiableAt ℝ (fun y => D2GDR0S0 (y (.inl iT)) (raw y 0) (raw y 1) (raw y 4) (raw y 5)) y
    have d0 := raw_diff 0 y
    have q0 := hp.1
    have n0 := q0.ne'
    have d1 := raw_diff 1 y
    have q1 := hp.2.1
    have n1 := q1.ne'
    have d4 := raw_diff 4 y
    have q4 := hp.2.2.2.2.1
    have n4 := q4.ne'
    have d5 := raw_diff 5 y
    have q5 := hp.2.2.2.2.2.1
    have n5 := q5.ne'
    try simp only [D2GDR0S0, zero_mul, mul_zero, add_zero, zero_add, sub_zero]
    ddq
  · have hp := pos y hy
    have h := c_D2GDR0S0 (hl y u ((.inl iT))) (hl y u ((.inl iP))) (hl y u ((.inl (.inl 0)))) (hl y u ((.inl (.inl
        1)))) (hl y u ((.inl (.inl 2)))) (hl y u ((.inl (.inl 3)))) (hl y u ((.inr 0))) (hl y u
        ((.inr 1))) (hl y u ((.inr 2))) (raw_line0 y u) (by simpa only [zero_mul, add_zero] using
        hp.1) (raw_line1 y u) (by simpa only [zero_mul, add_zero] using hp.2.1) (raw_line4 y u)
        (by simpa only [zero_mul, add_zero] using hp.2.2.2.2.1) (raw_line5 y u) (by simpa only
        [zero_mul, add_zero] using hp.2.2.2.2.2.1)
    try simp only [zero_mul, add_zero] at h
    refine h.congr_deriv ?_
    rw [sum_var]; simp only [Fin.sum_univ_four, Fin.sum_univ_three]; rfl

lemma gr_d2gdrds_0_1 (y : Var 4 3 → ℝ) (hy : Dom y) :
    Gr (fun y => (tables (raw y) y).d2gdrds 0 1) y ((tables (raw y) y).at3 (.inl (.inl 0)) (.inr 1)) := by
  refine Gr.of_lines ?_ fun u => ?_
  · have hp := pos y hy
    change DifferentiableAt ℝ (fun y => D2GDR0S1 (y (.inl iT)) (raw y 1) (raw y 5)) y
    have d1 := raw_diff 1 y
    have q1 := hp.2.1
    have n1 := q1.ne'
    have d5 := raw_diff 5 y
    have q5 := hp.2.2.2.2.2.1
    have n5 := q5.ne'
    try simp only [D2GDR0S1, zero_mul, mul_zero, add_zero, zero_add, sub_zero]
    ddq
  · have hp := pos y hy
    have h := c_D2GDR0S1 (hl y u ((.inl iT))) (hl y u ((.inl iP))) (hl y u ((.inl (.inl 0)))) (hl y u ((.inl (.inl
        1)))) (hl y u ((.inl (.inl 2)))) (hl y u ((.inl (.inl 3)))) (hl y u ((.inr 0))) (hl y u
        ((.inr 1))) (hl y u ((.inr 2))) (raw_line1 y u) (by simpa only [zero_mul, add_zero] using
        hp.2.1) (raw_line5 y u) (by simpa only [zero_mul, add_zero] using hp.2.2.2.2.2.1)
    try simp only [zero_mul, add_zero] at h
    refine h.congr_deriv ?_
    rw [sum_var]; simp only [Fin.sum_univ_four, Fin.sum_univ_three]; rfl

lemma gr_d2gdrds_0_2 (y : Var 4 3 → ℝ) (hy : Dom y) :
    Gr (fun y => (tables (raw y) y).d2gdrds 0 2) y ((tables (raw y) y).at3 (.inl (.inl 0)) (.inr 2)) := by
  refine Gr.of_lines ?_ fun u => ?_
  · have hp := pos y hy
    change DifferentiableAt ℝ (fun y => D2GDR0S2 (y (.inl iT)) (raw y 1) (raw y 5)) y
    have d1 := raw_diff 1 y
    have q1 := hp.2.1
    have n1 := q1.ne'
    have d5 := raw_diff 5 y
    have q5 := hp.2.2.2.2.2.1
    have n5 := q5.ne'
    try simp only [D2GDR0S2, zero_mul, mul_zero, add_zero, zero_add, sub_zero]
    ddq
  · have hp := pos y hy
    have h := c_D2GDR0S2 (hl y u ((.inl iT))) (hl y u ((.inl iP))) (hl y u ((.inl (.inl 0)))) (hl y u ((.inl (.inl
        1)))) (hl y u ((.inl (.inl 2)))) (hl y u ((.inl (.inl 3)))) (hl y u ((.inr 0))) (hl y u
        ((.inr 1))) (hl y u ((.inr 2))) (raw_line1 y u) (by simpa only [zero_mul, add_zero] using
        hp.2.1) (raw_line5 y u) (by simpa only [zero_mul, add_zero] using hp.2.2.2.2.2.1)
    try simp only [zero_mul, add_zero] at h
    refine h.congr_deriv ?_
    rw [sum_var]; simp only [Fin.sum_univ_four, Fin.sum_univ_three]; rfl

lemma gr_d2gdrdt_0 (y : Var 4 3 → ℝ) (hy : Dom y) :
    Gr (fun y => (tables (raw y) y).d2gdrdt 0) y ((tables (raw y) y).at3 (.inl (.inl 0)) (.inl iT)) := by
  refine Gr.of_lines ?_ fun u => ?_
  · have hp := pos y hy
    change DifferentiableAt ℝ (fun y => D2GDR0DT (raw y 0) (raw y 1) (raw y 4) (raw y 5)) y
    have d0 := raw_diff 0 y
    have q0 := hp.1
    have n0 := q0.ne'
    have d1 := raw_diff 1 y
    have q1 := hp.2.1
    have n1 := q1.ne'
    have d4 := raw_diff 4 y
    have q4 := hp.2.2.2.2.1
    have n4 := q4.ne'
    have d5 := raw_diff 5 y
    have q5 := hp.2.2.2.2.2.1
    have n5 := q5.ne'
    try simp only [D2GDR0DT, zero_mul, mul_zero, add_zero, zero_add, sub_zero]
    ddq
  · have hp := pos y hy
    have h := c_D2GDR0DT (hl y u ((.inl iT))) (hl y u ((.inl iP))) (hl y u ((.inl (.inl 0)))) (hl y u ((.inl (.inl
        1)))) (hl y u ((.inl (.inl 2)))) (hl y u ((.inl (.inl 3)))) (hl y u ((.inr 0))) (hl y u
        ((.inr 1))) (hl y u ((.inr 2))) (raw_line0 y u) (by simpa only [zero_mul, add_zero] using
        hp.1) (raw_line1 y u) (by simpa only [zero_mul, add_zero] using hp.2.1) (raw_line4 y u)
        (by simpa only [zero_mul, add_zero] using hp.2.2.2.2.1) (raw_line5 y u) (by simpa only
        [zero_mul, add_zero] using hp.2.2.2.2.2.1)
    try simp only [zero_mul, add_zero] at h
    refine h.congr_deriv ?_
    rw [sum_var]; simp only [Fin.sum_univ_four, Fin.sum_univ_three]; rfl

lemma gr_d2gdrdp_0 (y : Var 4 3 → ℝ) (hy : Dom y) :
    Gr (fun y => (tables (raw y) y).d2gdrdp 0) y ((tables (raw y) y).at3 (.inl (.inl 0)) (.inl iP)) := by
  refine Gr.of_lines ?_ fun u => ?_
  · have hp := pos y hy
    change DifferentiableAt ℝ (fun y => D2GDR0DP) y
    try simp only [D2GDR0DP, zero_mul, mul_zero, add_zero, zero_add, sub_zero]
    ddq
  · have hp := pos y hy
    have h := c_D2GDR0DP (hl y u ((.inl iT))) (hl y u ((.inl iP))) (hl y u ((.inl (.inl 0)))) (hl y u ((.inl (.inl
        1)))) (hl y u ((.inl (.inl 2)))) (hl y u ((.inl (.inl 3)))) (hl y u ((.inr 0))) (hl y u
        ((.inr 1))) (hl y u ((.inr 2)))
    try simp only [zero_mul, add_zero] at h
    refine h.congr_deriv ?_
    rw [sum_var]; simp only [Fin.sum_univ_four, Fin.sum_univ_three]; rfl

lemma gr_d2gdr2_1_1 (y : Var 4 3 → ℝ) (hy : Dom y) :
    Gr (fun y => (tables (raw y) y).d2gdr2 1 1) y ((tables (raw y) y).at3 (.inl (.inl 1)) (.inl (.inl 1))) := by
  refine Gr.of_lines ?_ fun u => ?_
  · have hp := pos y hy
    change DifferentiableAt ℝ (fun y => D2GDR1R1 (y (.inl iT)) (raw y 1) (raw y 2) (raw y 5) (raw y 6) (raw y 8)) y
    have d1 := raw_diff 1 y
    have q1 := hp.2.1
    have n1 := q1.ne'
    have d2 := raw_diff 2 y
    have q2 := hp.2.2.1
    have n2 := q2.ne'
    have d5 := raw_diff 5 y
    have q5 := hp.2.2.2.2.2.1
    have n5 := q5.ne'
    have d6 := raw_diff 6 y
    have q6 := hp.2.2.2.2.2.2.1
    have n6 := q6.ne'
    have d8 := raw_diff 8 y
    have q8 := hp.2.2.2.2.2.2.2.2.1
    have n8 := q8.ne'
    try simp only [D2GDR1R1, zero_mul, mul_zero, add_zero, zero_add, sub_zero]
    ddq
  · have hp := pos y hy
    have h := c_D2GDR1R1 (hl y u ((.inl iT))) (hl y u ((.inl iP))) (hl y u ((.inl (.inl 0)))) (hl y u ((.inl (.inl
        1)))) (hl y u ((.inl (.inl 2)))) (hl y u ((.inl (.inl 3)))) (hl y u ((.inr 0))) (hl y u
        ((.inr 1))) (hl y u ((.inr 2))) (raw_line1 y u) (by simpa only [zero_mul, add_zero] using
        hp.2.1) (raw_line2 y u) (by simpa only [zero_mul, add_zero] using hp.2.2.1) (raw_line5 y
        u) (by simpa only [zero_mul, add_zero] using hp.2.2.2.2.2.1) (raw_line6 y u) (by simpa
        only [zero_mul, add_zero] using hp.2.2.2.2.2.2.1) (raw_line8 y u) (by simpa only
        [zero_mul, add_zero] using hp.2.2.2.2.2.2.2.2.1)
    try simp only [zero_mul, add_zero] at h
    refine h.congr_deriv ?_
    rw [sum_var]; simp only [Fin.sum_univ_four, Fin.sum_univ_three]; rfl

lemma gr_d2gdr2_1_2 (y : Var 4 3 → ℝ) (hy : Dom y) :
    Gr (fun y => (tables (raw y) y).d2gdr2 1 2) y ((tables (raw y) y).at3 (.inl (.inl 1)) (.inl (.inl 2))) := by
  refine Gr.of_lines ?_ fun u => ?_
  · have hp := pos y hy
    change DifferentiableAt ℝ (fun y => D2GDR1R2 (y (.inl iT)) (raw y 1) (raw y 2) (raw y 6)) y
    have d1 := raw_diff 1 y
    have q1 := hp.2.1
    have n1 := q1.ne'
    have d2 := raw_diff 2 y
    have q2 := hp.2.2.1
    have n2 := q2.ne'
    have d6 := raw_diff 6 y
    have q6 := hp.2.2.2.2.2.2.1
    have n6 := q6.ne'
    try simp only [D2GDR1R2, zero_mul, mul_zero, add_zero, zero_add, sub_zero]
    ddq
  · have hp := pos y hy
    have h := c_D2GDR1R2 (hl y u ((.inl iT))) (hl y u ((.inl iP))) (hl y u ((.inl (.inl 0)))) (hl y u ((.inl (.inl
        1)))) (hl y u ((.inl (.inl 2)))) (hl y u ((.inl (.inl 3)))) (hl y u ((.inr 0))) (hl y u
        ((.inr 1))) (hl y u ((.inr 2))) (raw_line1 y u) (by simpa only [zero_mul, add_zero] using
        hp.2.1) (raw_line2 y u) (by simpa only [zero_mul, add_zero] using hp.2.2.1) (raw_line6 y
        u) (by simpa only [zero_mul, add_zero] using hp.2.2.2.2.2.2.1)
    try simp only [zero_mul, add_zero] at h
    refine h.congr_deriv ?_
    rw [sum_var]; simp only [Fin.sum_univ_four, Fin.sum_univ_three]; rfl

lemma gr_d2gdr2_1_3 (y : Var 4 3 → ℝ) (hy : Dom y) :
    Gr (fun y => (tables (raw y) y).d2gdr2 1 3) y ((tables (raw y) y).at3 (.inl (.inl 1)) (.inl (.inl 3))) := by
  refine Gr.of_lines ?_ fun u => ?_
  · have hp := pos y hy
    change DifferentiableAt ℝ (fun y => D2GDR1R3 (y (.inl iT)) (raw y 2) (raw y 6)) y
    have d2 := raw_diff 2 y
    have q2 := hp.2.2.1
    have n2 := q2.ne'
    have d6 := raw_diff 6 y
    have q6 := hp.2.2.2.2.2.2.1
    have n6 := q6.ne'
    try simp only [D2GDR1R3, zero_mul, mul_zero, add_zero, zero_add, sub_zero]
    ddq
  · have hp := pos y hy
    have h := c_D2GDR1R3 (hl y u ((.inl iT))) (hl y u ((.inl iP))) (hl y u ((.inl (.inl 0)))) (hl y u ((.inl (.inl
        1)))) (hl y u ((.inl (.inl 2)))) (hl y u ((.inl (.inl 3)))) (hl y u ((.inr 0))) (hl y u
        ((.inr 1))) (hl y u ((.inr 2))) (raw_line2 y u) (by simpa only [zero_mul, add_zero] using
        hp.2.2.1) (raw_line6 y u) (by simpa only [zero_mul, add_zero] using hp.2.2.2.2.2.2.1)
    try simp only [zero_mul, add_zero] at h
    refine h.congr_deriv ?_
    rw [sum_var]; simp only [Fin.sum_univ_four, Fin.sum_univ_three]; rfl

lemma gr_d2gdrds_1_0 (y : Var 4 3 → ℝ) (hy : Dom y) :
    Gr (fun y => (tables (raw y) y).d2gdrds 1 0) y ((tables (raw y) y).at3 (.inl (.inl 1)) (.inr 0)) := by
  refine Gr.of_lines ?_ fun u => ?_
  · have hp := pos y hy
    change DifferentiableAt ℝ (fun y => D2GDR1S0 (y (.inl iT)) (raw y 1) (raw y 5)) y
    have d1 := raw_diff 1 y
    have q1 := hp.2.1
    have n1 := q1.ne'
    have d5 := raw_diff 5 y
    have q5 := hp.2.2.2.2.2.1
    have n5 := q5.ne'
    try simp only [D2GDR1S0, zero_mul, mul_zero, add_zero, zero_add, sub_zero]
    ddq
  · have hp := pos y hy
    have h := c_D2GDR1S0 (hl y u ((.inl iT))) (hl y u ((.inl iP))) (hl y u ((.inl (.inl 0)))) (hl y u ((.inl (.inl
        1)))) (hl y u ((.inl (.inl 2)))) (hl y u ((.inl (.inl 3)))) (hl y u ((.inr 0))) (hl y u
        ((.inr 1))) (hl y u ((.inr 2))) (raw_line1 y u) (by simpa only [zero_mul, add_zero] using
        hp.2.1) (raw_line5 y u) (by simpa only [zero_mul, add_zero] using hp.2.2.2.2.2.1)
    try simp only [zero_mul, add_zero] at h
    refine h.congr_deriv ?_
    rw [sum_var]; simp only [Fin.sum_univ_four, Fin.sum_univ_three]; rfl

lemma gr_d2gdrds_1_1 (y : Var 4 3 → ℝ) (hy : Dom y) :
    Gr (fun y => (tables (raw y) y).d2gdrds 1 1) y ((tables (raw y) y).at3 (.inl (.inl 1)) (.inr 1)) := by
  refine Gr.of_lines ?_ fun u => ?_
  · have hp := pos y hy
    change DifferentiableAt ℝ (fun y => D2GDR1S1 (y (.inl iT)) (raw y 1) (raw y 2) (raw y 5) (raw y 6)) y
    have d1 := raw_diff 1 y
    have q1 := hp.2.1
    have n1 := q1.ne'
    have d2 := raw_diff 2 y
    have q2 := hp.2.2.1
    have n2 := q2.ne'
    have d5 := raw_diff 5 y
    have q5 := hp.2.2.2.2.2.1
    have n5 := q5.ne'
    have d6 := raw_diff 6 y
    have q6 := hp.2.2.2.2.2.2.1
    have n6 := q6.ne'
    try simp only [D2GDR1S1, zero_mul, mul_zero, add_zero, zero_add, sub_zero]
    ddq
  · have hp := pos y hy
    have h := c_D2GDR1S1 (hl y u ((.inl iT))) (hl y u ((.inl iP))) (hl y u ((.inl (.inl 0)))) (hl y u ((.inl (.inl
        1)))) (hl y u ((.inl (.inl 2)))) (hl y u ((.inl (.inl 3)))) (hl y u ((.inr 0))) (hl y u
        ((.inr 1))) (hl y u ((.inr 2))) (raw_line1 y u) (by simpa only [zero_mul, add_zero] using
        hp.2.1) (raw_line2 y u) (by simpa only [zero_mul, add_zero] using hp.2.2.1) (raw_line5 y
        u) (by simpa only [zero_mul, add_zero] using hp.2.2.2.2.2.1) (raw_line6 y u) (by simpa
        only [zero_mul, add_zero] using hp.2.2.2.2.2.2.1)
    try simp only [zero_mul, add_zero] at h
    refine h.congr_deriv ?_
    rw [sum_var]; simp only [Fin.sum_univ_four, Fin.sum_univ_three]; rfl

lemma gr_d2gdrds_1_2 (y : Var 4 3 → ℝ) (hy : Dom y) :
    Gr (fun y => (tables (raw y) y).d2gdrds 1 2) y ((tables (raw y) y).at3 (.inl (.inl 1)) (.inr 2)) := by
  refine Gr.of_lines ?_ fun u => ?_
  · have hp := pos y hy
    change DifferentiableAt ℝ (fun y => D2GDR1S2 (y (.inl iT)) (raw y 1) (raw y 5)) y
    have d1 := raw_diff 1 y
    have q1 := hp.2.1
    have n1 := q1.ne'
    have d5 := raw_diff 5 y
    have q5 := hp.2.2.2.2.2.1
    have n5 := q5.ne'
    try simp only [D2GDR1S2, zero_mul, mul_zero, add_zero, zero_add, sub_zero]
    ddq
  · have hp := pos y hy
    have h := c_D2GDR1S2 (hl y u ((.inl iT))) (hl y u ((.inl iP))) (hl y u ((.inl (.inl 0)))) (hl y u ((.inl (.inl
        1)))) (hl y u ((.inl (.inl 2)))) (hl y u ((.inl (.inl 3)))) (hl y u ((.inr 0))) (hl y u
        ((.inr 1))) (hl y u ((.inr 2))) (raw_line1 y u) (by simpa only [zero_mul, add_zero] using
        hp.2.1) (raw_line5 y u) (by simpa only [zero_mul, add_zero] using hp.2.2.2.2.2.1)
    try simp only [zero_mul, add_zero] at h
    refine h.congr_deriv ?_
    rw [sum_var]; simp only [Fin.sum_univ_four, Fin.sum_univ_three]; rfl

lemma gr_d2gdrdt_1 (y : Var 4 3 → ℝ) (hy : Dom y) :
    Gr (fun y => (tables (raw y) y).d2gdrdt 1) y ((tables (raw y) y).at3 (.inl (.inl 1)) (.inl iT)) := by
  refine Gr.of_lines ?_ fun u => ?_
  · have hp := pos y hy
    change DifferentiableAt ℝ (fun y => D2GDR1DT (raw y 1) (raw y 2) (raw y 5) (raw y 6) (raw y 8)) y
    have d1 := raw_diff 1 y
    have q1 := hp.2.1
    have n1 := q1.ne'
    have d2 := raw_diff 2 y
    have q2 := hp.2.2.1
    have n2 := q2.ne'
    have d5 := raw_diff 5 y
    have q5 := hp.2.2.2.2.2.1
    have n5 := q5.ne'
    have d6 := raw_diff 6 y
    have q6 := hp.2.2.2.2.2.2.1
    have n6 := q6.ne'
    have d8 := raw_diff 8 y
    have q8 := hp.2.2.2.2.2.2.2.2.1
    have n8 := q8.ne'
    try simp only [D2GDR1DT, zero_mul, mul_zero, add_zero, zero_add, sub_zero]
    ddq
  · have hp := pos y hy
    have h := c_D2GDR1DT (hl y u ((.inl iT))) (hl y u ((.inl iP))) (hl y u ((.inl (.inl 0)))) (hl y u ((.inl (.inl
        1)))) (hl y u ((.inl (.inl 2)))) (hl y u ((.inl (.inl 3)))) (hl y u ((.inr 0))) (hl y u
        ((.inr 1))) (hl y u ((.inr 2))) (raw_line1 y u) (by simpa only [zero_mul, add_zero] using
        hp.2.1) (raw_line2 y u) (by simpa only [zero_mul, add_zero] using hp.2.2.1) (raw_line5 y
        u) (by simpa only [zero_mul, add_zero] using hp.2.2.2.2.2.1) (raw_line6 y u) (by simpa
        only [zero_mul, add_zero] using hp.2.2.2.2.2.2.1) (raw_line8 y u) (by simpa only
        [zero_mul, add_zero] using hp.2.2.2.2.2.2.2.2.1)
    try simp only [zero_mul, add_zero] at h
    refine h.congr_deriv ?_
    rw [sum_var]; simp only [Fin.sum_univ_four, Fin.sum_univ_three]; rfl

lemma gr_d2gdrdp_1 (y : Var 4 3 → ℝ) (hy : Dom y) :
    Gr (fun y => (tables (raw y) y).d2gdrdp 1) y ((tables (raw y) y).at3 (.inl (.inl 1)) (.inl iP)) := by
  refine Gr.of_lines ?_ fun u => ?_
  · have hp := pos y hy
    change DifferentiableAt ℝ (fun y => D2GDR1DP) y
    try simp only [D2GDR1DP, zero_mul, mul_zero, add_zero, zero_add, sub_zero]
    ddq
  · have hp := pos y hy
    have h := c_D2GDR1DP (hl y u ((.inl iT))) (hl y u ((.inl iP))) (hl y u ((.inl (.inl 0)))) (hl y u ((.inl (.inl
        1)))) (hl y u ((.inl (.inl 2)))) (hl y u ((.inl (.inl 3)))) (hl y u ((.inr 0))) (hl y u
        ((.inr 1))) (hl y u ((.inr 2)))
    try simp only [zero_mul, add_zero] at h
    refine h.congr_deriv ?_
    rw [sum_var]; simp only [Fin.sum_univ_four, Fin.sum_univ_three]; rfl

lemma gr_d2gdr2_2_2 (y : Var 4 3 → ℝ) (hy : Dom y) :
    Gr (fun y => (tables (raw y) y).d2gdr2 2 2) y ((tables (raw y) y).at3 (.inl (.inl 2)) (.inl (.inl 2))) := by
  refine Gr.of_lines ?_ fun u => ?_
  · have hp := pos y hy
    change DifferentiableAt ℝ (fun y => D2GDR2R2 (y (.inl iT)) (y (.inl iP)) (y (.inl (.inl 3))) (raw y 1) (raw y 2) (raw y 6) (raw y 9)) y
    have d1 := raw_diff 1 y
    have q1 := hp.2.1
    have n1 := q1.ne'
    have d2 := raw_diff 2 y
    have q2 := hp.2.2.1
    have n2 := q2.ne'
    have d6 := raw_diff 6 y
    have q6 := hp.2.2.2.2.2.2.1
    have n6 := q6.ne'
    have d9 := raw_diff 9 y
    have q9 := hp.2.2.2.2.2.2.2.2.2
    have n9 := q9.ne'
    try simp only [D2GDR2R2, zero_mul, mul_zero, add_zero, zero_add, sub_zero]
    ddq
  · have hp := pos y hy
    have h := c_D2GDR2R2 (hl y u ((.inl iT))) (hl y u ((.inl iP))) (hl y u ((.inl (.inl 0)))) (hl y u ((.inl (.inl
        1)))) (hl y u ((.inl (.inl 2)))) (hl y u ((.inl (.inl 3)))) (hl y u ((.inr 0))) (hl y u
        ((.inr 1))) (hl y u ((.inr 2))) (raw_line1 y u) (by simpa only [zero_mul, add_zero] using
        hp.2.1) (raw_line2 y u) (by simpa only [zero_mul, add_zero] using hp.2.2.1) (raw_line6 y
        u) (by simpa only [zero_mul, add_zero] using hp.2.2.2.2.2.2.1) (raw_line9 y u) (by simpa
        only [zero_mul, add_zero] using hp.2.2.2.2.2.2.2.2.2)
    try simp only [zero_mul, add_zero] at h
    refine h.congr_deriv ?_
    rw [sum_var]; simp only [Fin.sum_univ_four, Fin.sum_univ_three]; rfl

lemma gr_d2gdr2_2_3 (y : Var 4 3 → ℝ) (hy : Dom y) :
    Gr (fun y => (tables (raw y) y).d2gdr2 2 3) y ((tables (raw y) y).at3 (.inl (.inl 2)) (.inl (.inl 3))) := by
  refine Gr.of_lines ?_ fun u => ?_
  · have hp := pos y hy
    change DifferentiableAt ℝ (fun y => D2GDR2R3 (y (.inl iT)) (y (.inl iP)) (y (.inl (.inl 2))) (y (.inl (.inl 3))) (raw y 2) (raw y 6)) y
    have d2 := raw_diff 2 y
    have q2 := hp.2.2.1
    have n2 := q2.ne'
    have d6 := raw_diff 6 y
    have q6 := hp.2.2.2.2.2.2.1
    have n6 := q6.ne'
    try simp only [D2GDR2R3, zero_mul, mul_zero, add_zero, zero_add, sub_zero]
    ddq
  · have hp := pos y hy
    have h := c_D2GDR2R3 (hl y u ((.inl iT))) (hl y u ((.inl iP))) (hl y u ((.inl (.inl 0)))) (hl y u ((.inl (.inl
        1)))) (hl y u ((.inl (.inl 2)))) (hl y u ((.inl (.inl 3)))) (hl y u ((.inr 0))) (hl y u
        ((.inr 1))) (hl y u ((.inr 2))) (raw_line2 y u) (by simpa only [zero_mul, add_zero] using
        hp.2.2.1) (raw_line6 y u) (by simpa only [zero_mul, add_zero] using hp.2.2.2.2.2.2.1)
    try simp only [zero_mul, add_zero] at h
    refine h.congr_deriv ?_
    rw [sum_var]; simp only [Fin.sum_univ_four, Fin.sum_univ_three]; rfl

lemma gr_d2gdrds_2_0 (y : Var 4 3 → ℝ) (hy : Dom y) :
    Gr (fun y => (tables (raw y) y).d2gdrds 2 0) y ((tables (raw y) y).at3 (.inl (.inl 2)) (.inr 0)) := by
  refine Gr.of_lines ?_ fun u => ?_
  · have hp := pos y hy
    change DifferentiableAt ℝ (fun y => D2GDR2S0 (y (.inl iT)) (raw y 1)) y
    have d1 := raw_diff 1 y
    have q1 := hp.2.1
    have n1 := q1.ne'
    try simp only [D2GDR2S0, zero_mul, mul_zero, add_zero, zero_add, sub_zero]
    ddq
  · have hp := pos y hy
    have h := c_D2GDR2S0 (hl y u ((.inl iT))) (hl y u ((.inl iP))) (hl y u ((.inl (.inl 0)))) (hl y u ((.inl (.inl
        1)))) (hl y u ((.inl (.inl 2)))) (hl y u ((.inl (.inl 3)))) (hl y u ((.inr 0))) (hl y u
        ((.inr 1))) (hl y u ((.inr 2))) (raw_line1 y u) (by simpa only [zero_mul, add_zero] using
        hp.2.1)
    try simp only [zero_mul, add_zero] at h
    refine h.congr_deriv ?_
    rw [sum_var]; simp only [Fin.sum_univ_four, Fin.sum_univ_three]; rfl

lemma gr_d2gdrds_2_1 (y : Var 4 3 → ℝ) (hy : Dom y) :
    Gr (fun y => (tables (raw y) y).d2gdrds 2 1) y ((tables (raw y) y).at3 (.inl (.inl 2)) (.inr 1)) := by
  refine Gr.of_lines ?_ fun u => ?_
  · have hp := pos y hy
    change DifferentiableAt ℝ (fun y => D2GDR2S1 (y (.inl iT)) (raw y 1) (raw y 2) (raw y 6)) y
    have d1 := raw_diff 1 y
    have q1 := hp.2.1
    have n1 := q1.ne'
    have d2 := raw_diff 2 y
    have q2 := hp.2.2.1
    have n2 := q2.ne'
    have d6 := raw_diff 6 y
    have q6 := hp.2.2.2.2.2.2.1
    have n6 := q6.ne'
    try simp only [D2GDR2S1, zero_mul, mul_zero, add_zero, zero_add, sub_zero]
    ddq
  · have hp := pos y hy
    have h := c_D2GDR2S1 (hl y u ((.inl iT))) (hl y u ((.inl iP))) (hl y u ((.inl (.inl 0)))) (hl y u ((.inl (.inl
        1)))) (hl y u ((.inl (.inl 2)))) (hl y u ((.inl (.inl 3)))) (hl y u ((.inr 0))) (hl y u
        ((.inr 1))) (hl y u ((.inr 2))) (raw_line1 y u) (by simpa only [zero_mul, add_zero] using
        hp.2.1) (raw_line2 y u) (by simpa only [zero_mul, add_zero] using hp.2.2.1) (raw_line6 y
        u) (by simpa only [zero_mul, add_zero] using hp.2.2.2.2.2.2.1)
    try simp only [zero_mul, add_zero] at h
    refine h.congr_deriv ?_
    rw [sum_var]; simp only [Fin.sum_univ_four, Fin.sum_univ_three]; rfl

lemma gr_d2gdrds_2_2 (y : Var 4 3 → ℝ) (hy : Dom y) :
    Gr (fun y => (tables (raw y) y).d2gdrds 2 2) y ((tables (raw y) y).at3 (.inl (.inl 2)) (.inr 2)) := by
  refine Gr.of_lines ?_ fun u => ?_
  · have hp := pos y hy
    change DifferentiableAt ℝ (fun y => D2GDR2S2 (y (.inl iT)) (raw y 1)) y
    have d1 := raw_diff 1 y
    have q1 := hp.2.1
    have n1 := q1.ne'
    try simp only [D2GDR2S2, zero_mul, mul_zero, add_zero, zero_add, sub_zero]
    ddq
  · have hp := pos y hy
    have h := c_D2GDR2S2 (hl y u ((.inl iT))) (hl y u ((.inl iP))) (hl y u ((.inl (.inl 0)))) (hl y u ((.inl (.inl
        1)))) (hl y u ((.inl (.inl 2)))) (hl y u ((.inl (.inl 3)))) (hl y u ((.inr 0))) (hl y u
        ((.inr 1))) (hl y u ((.inr 2))) (raw_line1 y u) (by simpa only [zero_mul, add_zero] using
        hp.2.1)
    try simp only [zero_mul, add_zero] at h
    refine h.congr_deriv ?_
    rw [sum_var]; simp only [Fin.sum_univ_four, Fin.sum_univ_three]; rfl

lemma gr_d2gdrdt_2 (y : Var 4 3 → ℝ) (hy : Dom y) :
    Gr (fun y => (tables (raw y) y).d2gdrdt 2) y ((tables (raw y) y).at3 (.inl (.inl 2)) (.inl iT)) := by
  refine Gr.of_lines ?_ fun u => ?_
  · have hp := pos y hy
    change DifferentiableAt ℝ (fun y => D2GDR2DT (raw y 1) (raw y 2) (raw y 6) (raw y 9)) y
    have d1 := raw_diff 1 y
    have q1 := hp.2.1
    have n1 := q1.ne'
    have d2 := raw_diff 2 y
    have q2 := hp.2.2.1
    have n2 := q2.ne'
    have d6 := raw_diff 6 y
    have q6 := hp.2.2.2.2.2.2.1
    have n6 := q6.ne'
    have d9 := raw_diff 9 y
    have q9 := hp.2.2.2.2.2.2.2.2.2
    have n9 := q9.ne'
    try simp only [D2GDR2DT, zero_mul, mul_zero, add_zero, zero_add, sub_zero]
    ddq
  · have hp := pos y hy
    have h := c_D2GDR2DT (hl y u ((.inl iT))) (hl y u ((.inl iP))) (hl y u ((.inl (.inl 0)))) (hl y u ((.inl (.inl
        1)))) (hl y u ((.inl (.inl 2)))) (hl y u ((.inl (.inl 3)))) (hl y u ((.inr 0))) (hl y u
        ((.inr 1))) (hl y u ((.inr 2))) (raw_line1 y u) (by simpa only [zero_mul, add_zero] using
        hp.2.1) (raw_line2 y u) (by simpa only [zero_mul, add_zero] using hp.2.2.1) (raw_line6 y
        u) (by simpa only [zero_mul, add_zero] using hp.2.2.2.2.2.2.1) (raw_line9 y u) (by simpa
        only [zero_mul, add_zero] using hp.2.2.2.2.2.2.2.2.2)
    try simp only [zero_mul, add_zero] at h
    refine h.congr_deriv ?_
    rw [sum_var]; simp only [Fin.sum_univ_four, Fin.sum_univ_three]; rfl

lemma gr_d2gdrdp_2 (y : Var 4 3 → ℝ) (hy : Dom y) :
    Gr (fun y => (tables (raw y) y).d2gdrdp 2) y ((tables (raw y) y).at3 (.inl (.inl 2)) (.inl iP)) := by
  refine Gr.of_lines ?_ fun u => ?_
  · have hp := pos y hy
    change DifferentiableAt ℝ (fun y => D2GDR2DP (y (.inl (.inl 2))) (y (.inl (.inl 3)))) y
    try simp only [D2GDR2DP, zero_mul, mul_zero, add_zero, zero_add, sub_zero]
    ddq
  · have hp := pos y hy
    have h := c_D2GDR2DP (hl y u ((.inl iT))) (hl y u ((.inl iP))) (hl y u ((.inl (.inl 0)))) (hl y u ((.inl (.inl
        1)))) (hl y u ((.inl (.inl 2)))) (hl y u ((.inl (.inl 3)))) (hl y u ((.inr 0))) (hl y u
        ((.inr 1))) (hl y u ((.inr 2)))
    try simp only [zero_mul, add_zero] at h
    refine h.congr_deriv ?_
    rw [sum_var]; simp only [Fin.sum_univ_four, Fin.sum_univ_three]; rfl

lemma gr_d2gdr2_3_3 (y : Var 4 3 → ℝ) (hy : Dom y) :
    Gr (fun y => (tables (raw y) y).d2gdr2 3 3) y ((tables (raw y) y).at3 (.inl (.inl 3)) (.inl (.inl 3))) := by
  refine Gr.of_lines ?_ fun u => ?_
  · have hp := pos y hy
    change DifferentiableAt ℝ (fun y => D2GDR3R3 (y (.inl iT)) (y (.inl iP)) (y (.inl (.inl 2))) (raw y 2) (raw y 3) (raw y 6) (raw y 7)) y
    have d2 := raw_diff 2 y
    have q2 := hp.2.2.1
    have n2 := q2.ne'
    have d3 := raw_diff 3 y
    have q3 := hp.2.2.2.1
    have n3 := q3.ne'
    have d6 := raw_diff 6 y
    have q6 := hp.2.2.2.2.2.2.1
    have n6 := q6.ne'
    have d7 := raw_diff 7 y
    have q7 := hp.2.2.2.2.2.2.2.1
    have n7 := q7.ne'
    try simp only [D2GDR3R3, zero_mul, mul_zero, add_zero, zero_add, sub_zero]
    ddq
  · have hp := pos y hy
    have h := c_D2GDR3R3 (hl y u ((.inl iT))) (hl y u ((.inl iP))) (hl y u ((.inl (.inl 0)))) (hl y u ((.inl (.inl
        1)))) (hl y u ((.inl (.inl 2)))) (hl y u ((.inl (.inl 3)))) (hl y u ((.inr 0))) (hl y u
        ((.inr 1))) (hl y u ((.inr 2))) (raw_line2 y u) (by simpa only [zero_mul, add_zero] using
        hp.2.2.1) (raw_line3 y u) (by simpa only [zero_mul, add_zero] using hp.2.2.2.1) (raw_line6
        y u) (by simpa only [zero_mul, add_zero] using hp.2.2.2.2.2.2.1) (raw_line7 y u) (by simpa
        only [zero_mul, add_zero] using hp.2.2.2.2.2.2.2.1)
    try simp only [zero_mul, add_zero] at h
    refine h.congr_deriv ?_
    rw [sum_var]; simp only [Fin.sum_univ_four, Fin.sum_univ_three]; rfl

lemma gr_d2gdrds_3_0 (y : Var 4 3 → ℝ) (hy : Dom y) :
    Gr (fun y => (tables (raw y) y).d2gdrds 3 0) y ((tables (raw y) y).at3 (.inl (.inl 3)) (.inr 0)) := by
  refine Gr.of_lines ?_ fun u => ?_
  · have hp := pos y hy
    change DifferentiableAt ℝ (fun y => D2GDR3S0) y
    try simp only [D2GDR3S0, zero_mul, mul_zero, add_zero, zero_add, sub_zero]
    ddq
  · have hp := pos y hy
    have h := c_D2GDR3S0 (hl y u ((.inl iT))) (hl y u ((.inl iP))) (hl y u ((.inl (.inl 0)))) (hl y u ((.inl (.inl
        1)))) (hl y u ((.inl (.inl 2)))) (hl y u ((.inl (.inl 3)))) (hl y u ((.inr 0))) (hl y u
        ((.inr 1))) (hl y u ((.inr 2)))
    try simp only [zero_mul, add_zero] at h
    refine h.congr_deriv ?_
    rw [sum_var]; simp only [Fin.sum_univ_four, Fin.sum_univ_three]; rfl

lemma gr_d2gdrds_3_1 (y : Var 4 3 → ℝ) (hy : Dom y) :
    Gr (fun y => (tables (raw y) y).d2gdrds 3 1) y ((tables (raw y) y).at3 (.inl (.inl 3)) (.inr 1)) := by
  refine Gr.of_lines ?_ fun u => ?_
  · have hp := pos y hy
    change DifferentiableAt ℝ (fun y => D2GDR3S1 (y (.inl iT)) (raw y 2) (raw y 6)) y
    have d2 := raw_diff 2 y
    have q2 := hp.2.2.1
    have n2 := q2.ne'
    have d6 := raw_diff 6 y
    have q6 := hp.2.2.2.2.2.2.1
    have n6 := q6.ne'
    try simp only [D2GDR3S1, zero_mul, mul_zero, add_zero, zero_add, sub_zero]
    ddq
  · have hp := pos y hy
    have h := c_D2GDR3S1 (hl y u ((.inl iT))) (hl y u ((.inl iP))) (hl y u ((.inl (.inl 0)))) (hl y u ((.inl (.inl
        1)))) (hl y u ((.inl (.inl 2)))) (hl y u ((.inl (.inl 3)))) (hl y u ((.inr 0))) (hl y u
        ((.inr 1))) (hl y u ((.inr 2))) (raw_line2 y u) (by simpa only [zero_mul, add_zero] using
        hp.2.2.1) (raw_line6 y u) (by simpa only [zero_mul, add_zero] using hp.2.2.2.2.2.2.1)
    try simp only [zero_mul, add_zero] at h
    refine h.congr_deriv ?_
    rw [sum_var]; simp only [Fin.sum_univ_four, Fin.sum_univ_three]; rfl

lemma gr_d2gdrds_3_2 (y : Var 4 3 → ℝ) (hy : Dom y) :
    Gr (fun y => (tables (raw y) y).d2gdrds 3 2) y ((tables (raw y) y).at3 (.inl (.inl 3)) (.inr 2)) := by
  refine Gr.of_lines ?_ fun u => ?_
  · have hp := pos y hy
    change DifferentiableAt ℝ (fun y => D2GDR3S2 (y (.inl iT)) (raw y 3) (raw y 7)) y
    have d3 := raw_diff 3 y
    have q3 := hp.2.2.2.1
    have n3 := q3.ne'
    have d7 := raw_diff 7 y
    have q7 := hp.2.2.2.2.2.2.2.1
    have n7 := q7.ne'
    try simp only [D2GDR3S2, zero_mul, mul_zero, add_zero, zero_add, sub_zero]
    ddq
  · have hp := pos y hy
    have h := c_D2GDR3S2 (hl y u ((.inl iT))) (hl y u ((.inl iP))) (hl y u ((.inl (.inl 0)))) (hl y u ((.inl (.inl
        1)))) (hl y u ((.inl (.inl 2)))) (hl y u ((.inl (.inl 3)))) (hl y u ((.inr 0))) (hl y u
        ((.inr 1))) (hl y u ((.inr 2))) (raw_line3 y u) (by simpa only [zero_mul, add_zero] using
        hp.2.2.2.1) (raw_line7 y u) (by simpa only [zero_mul, add_zero] using hp.2.2.2.2.2.2.2.1)
    try simp only [zero_mul, add_zero] at h
    refine h.congr_deriv ?_
    rw [sum_var]; simp only [Fin.sum_univ_four, Fin.sum_univ_three]; rfl

lemma gr_d2gdrdt_3 (y : Var 4 3 → ℝ) (hy : Dom y) :
    Gr (fun y => (tables (raw y) y).d2gdrdt 3) y ((tables (raw y) y).at3 (.inl (.inl 3)) (.inl iT)) := by
  refine Gr.of_lines ?_ fun u => ?_
  · have hp := pos y hy
    change DifferentiableAt ℝ (fun y => D2GDR3DT (raw y 2) (raw y 3) (raw y 6) (raw y 7)) y
    have d2 := raw_diff 2 y
    have q2 := hp.2.2.1
    have n2 := q2.ne'
    have d3 := raw_diff 3 y
    have q3 := hp.2.2.2.1
    have n3 := q3.ne'
    have d6 := raw_diff 6 y
    have q6 := hp.2.2.2.2.2.2.1
    have n6 := q6.ne'
    have d7 := raw_diff 7 y
    have q7 := hp.2.2.2.2.2.2.2.1
    have n7 := q7.ne'
    try simp only [D2GDR3DT, zero_mul, mul_zero, add_zero, zero_add, sub_zero]
    ddq
  · have hp := pos y hy
    have h := c_D2GDR3DT (hl y u ((.inl iT))) (hl y u ((.inl iP))) (hl y u ((.inl (.inl 0)))) (hl y u ((.inl (.inl
        1)))) (hl y u ((.inl (.inl 2)))) (hl y u ((.inl (.inl 3)))) (hl y u ((.inr 0))) (hl y u
        ((.inr 1))) (hl y u ((.inr 2))) (raw_line2 y u) (by simpa only [zero_mul, add_zero] using
        hp.2.2.1) (raw_line3 y u) (by simpa only [zero_mul, add_zero] using hp.2.2.2.1) (raw_line6
        y u) (by simpa only [zero_mul, add_zero] using hp.2.2.2.2.2.2.1) (raw_line7 y u) (by simpa
        only [zero_mul, add_zero] using hp.2.2.2.2.2.2.2.1)
    try simp only [zero_mul, add_zero] at h
    refine h.congr_deriv ?_
    rw [sum_var]; simp only [Fin.sum_univ_four, Fin.sum_univ_three]; rfl

lemma gr_d2gdrdp_3 (y : Var 4 3 → ℝ) (hy : Dom y) :
    Gr (fun y => (tables (raw y) y).d2gdrdp 3) y ((tables (raw y) y).at3 (.inl (.inl 3)) (.inl iP)) := by
  refine Gr.of_lines ?_ fun u => ?_
  · have hp := pos y hy
    change DifferentiableAt ℝ (fun y => D2GDR3DP (y (.inl (.inl 2))) (y (.inl (.inl 3)))) y
    try simp only [D2GDR3DP, zero_mul, mul_zero, add_zero, zero_add, sub_zero]
    ddq
  · have hp := pos y hy
    have h := c_D2GDR3DP (hl y u ((.inl iT))) (hl y u ((.inl iP))) (hl y u ((.inl (.inl 0)))) (hl y u ((.inl (.inl
        1)))) (hl y u ((.inl (.inl 2)))) (hl y u ((.inl (.inl 3)))) (hl y u ((.inr 0))) (hl y u
        ((.inr 1))) (hl y u ((.inr 2)))
    try simp only [zero_mul, add_zero] at h
    refine h.congr_deriv ?_
    rw [sum_var]; simp only [Fin.sum_univ_four, Fin.sum_univ_three]; rfl

lemma gr_d2gds2_0_0 (y : Var 4 3 → ℝ) (hy : Dom y) :
    Gr (fun y => (tables (raw y) y).d2gds2 0 0) y ((tables (raw y) y).at3 (.inr 0) (.inr 0)) := by
  refine Gr.of_lines ?_ fun u => ?_
  · have hp := pos y hy
    change DifferentiableAt ℝ (fun y => D2GDS0S0 (y (.inl iT)) (raw y 0) (raw y 1) (raw y 4) (raw y 5)) y
    have d0 := raw_diff 0 y
    have q0 := hp.1
    have n0 := q0.ne'
    have d1 := raw_diff 1 y
    have q1 := hp.2.1
    have n1 := q1.ne'
    have d4 := raw_diff 4 y
    have q4 := hp.2.2.2.2.1
    have n4 := q4.ne'
    have d5 := raw_diff 5 y
    have q5 := hp.2.2.2.2.2.1
    have n5 := q5.ne'
    try simp only [D2GDS0S0, zero_mul, mul_zero, add_zero, zero_add, sub_zero]
    ddq
  · have hp := pos y hy
    have h := c_D2GDS0S0 (hl y u ((.inl iT))) (hl y u ((.inl iP))) (hl y u ((.inl (.inl 0)))) (hl y u ((.inl (.inl
        1)))) (hl y u ((.inl (.inl 2)))) (hl y u ((.inl (.inl 3)))) (hl y u ((.inr 0))) (hl y u
        ((.inr 1))) (hl y u ((.inr 2))) (raw_line0 y u) (by simpa only [zero_mul, add_zero] using
        hp.1) (raw_line1 y u) (by simpa only [zero_mul, add_zero] using hp.2.1) (raw_line4 y u)
        (by simpa only [zero_mul, add_zero] using hp.2.2.2.2.1) (raw_line5 y u) (by simpa only
        [zero_mul, add_zero] using hp.2.2.2.2.2.1)
    try simp only [zero_mul, add_zero] at h
    refine h.congr_deriv ?_
    rw [sum_var]; simp only [Fin.sum_univ_four, Fin.sum_univ_three]; rfl

lemma gr_d2gds2_0_1 (y : Var 4 3 → ℝ) (hy : Dom y) :
    Gr (fun y => (tables (raw y) y).d2gds2 0 1) y ((tables (raw y) y).at3 (.inr 0) (.inr 1)) := by
  refine Gr.of_lines ?_ fun u => ?_
  · have hp := pos y hy
    change DifferentiableAt ℝ (fun y => D2GDS0S1 (y (.inl iT)) (raw y 1) (raw y 5)) y
    have d1 := raw_diff 1 y
    have q1 := hp.2.1
    have n1 := q1.ne'
    have d5 := raw_diff 5 y
    have q5 := hp.2.2.2.2.2.1
    have n5 := q5.ne'
    try simp only [D2GDS0S1, zero_mul, mul_zero, add_zero, zero_add, sub_zero]
    ddq
  · have hp := pos y hy
    have h := c_D2GDS0S1 (hl y u ((.inl iT))) (hl y u ((.inl iP))) (hl y u ((.inl (.inl 0)))) (hl y u ((.inl (.inl
        1)))) (hl y u ((.inl (.inl 2)))) (hl y u ((.inl (.inl 3)))) (hl y u ((.inr 0))) (hl y u
        ((.inr 1))) (hl y u ((.inr 2))) (raw_line1 y u) (by simpa only [zero_mul, add_zero] using
        hp.2.1) (raw_line5 y u) (by simpa only [zero_mul, add_zero] using hp.2.2.2.2.2.1)
    try simp only [zero_mul, add_zero] at h
    refine h.congr_deriv ?_
    rw [sum_var]; simp only [Fin.sum_univ_four, Fin.sum_univ_three]; rfl

lemma gr_d2gds2_0_2 (y : Var 4 3 → ℝ) (hy : Dom y) :
    Gr (fun y => (tables (raw y) y).d2gds2 0 2) y ((tables (raw y) y).at3 (.inr 0) (.inr 2)) := by
  refine Gr.of_lines ?_ fun u => ?_
  · have hp := pos y hy
    change DifferentiableAt ℝ (fun y => D2GDS0S2 (y (.inl iT)) (raw y 1) (raw y 5)) y
    have d1 := raw_diff 1 y
    have q1 := hp.2.1
    have n1 := q1.ne'
    have d5 := raw_diff 5 y
    have q5 := hp.2.2.2.2.2.1
    have n5 := q5.ne'
    try simp only [D2GDS0S2, zero_mul, mul_zero, add_zero, zero_add, sub_zero]
    ddq
  · have hp := pos y hy
    have h := c_D2GDS0S2 (hl y u ((.inl iT))) (hl y u ((.inl iP))) (hl y u ((.inl (.inl 0)))) (hl y u ((.inl (.inl
        1)))) (hl y u ((.inl (.inl 2)))) (hl y u ((.inl (.inl 3)))) (hl y u ((.inr 0))) (hl y u
        ((.inr 1))) (hl y u ((.inr 2))) (raw_line1 y u) (by simpa only [zero_mul, add_zero] using
        hp.2.1) (raw_line5 y u) (by simpa only [zero_mul, add_zero] using hp.2.2.2.2.2.1)
    try simp only [zero_mul, add_zero] at h
    refine h.congr_deriv ?_
    rw [sum_var]; simp only [Fin.sum_univ_four, Fin.sum_univ_three]; rfl

lemma gr_d2gdsdt_0 (y : Var 4 3 → ℝ) (hy : Dom y) :
    Gr (fun y => (tables (raw y) y).d2gdsdt 0) y ((tables (raw y) y).at3 (.inr 0) (.inl iT)) := by
  refine Gr.of_lines ?_ fun u => ?_
  · have hp := pos y hy
    change DifferentiableAt ℝ (fun y => D2GDS0DT (raw y 0) (raw y 1) (raw y 4) (raw y 5)) y
    have d0 := raw_diff 0 y
    have q0 := hp.1
    have n0 := q0.ne'
    have d1 := raw_diff 1 y
    have q1 := hp.2.1
    have n1 := q1.ne'
    have d4 := raw_diff 4 y
    have q4 := hp.2.2.2.2.1
    have n4 := q4.ne'
    have d5 := raw_diff 5 y
    have q5 := hp.2.2.2.2.2.1
    have n5 := q5.ne'
    try simp only [D2GDS0DT, zero_mul, mul_zero, add_zero, zero_add, sub_zero]
    ddq
  · have hp := pos y hy
    have h := c_D2GDS0DT (hl y u ((.inl iT))) (hl y u ((.inl iP))) (hl y u ((.inl (.inl 0)))) (hl y u ((.inl (.inl
        1)))) (hl y u ((.inl (.inl 2)))) (hl y u ((.inl (.inl 3)))) (hl y u ((.inr 0))) (hl y u
        ((.inr 1))) (hl y u ((.inr 2))) (raw_line0 y u) (by simpa only [zero_mul, add_zero] using
        hp.1) (raw_line1 y u) (by simpa only [zero_mul, add_zero] using hp.2.1) (raw_line4 y u)
        (by simpa only [zero_mul, add_zero] using hp.2.2.2.2.1) (raw_line5 y u) (by simpa only
        [zero_mul, add_zero] using hp.2.2.2.2.2.1)
    try simp only [zero_mul, add_zero] at h
    refine h.congr_deriv ?_
    rw [sum_var]; simp only [Fin.sum_univ_four, Fin.sum_univ_three]; rfl

lemma gr_d2gdsdp_0 (y : Var 4 3 → ℝ) (hy : Dom y) :
    Gr (fun y => (tables (raw y) y).d2gdsdp 0) y ((tables (raw y) y).at3 (.inr 0) (.inl iP)) := by
  refine Gr.of_lines ?_ fun u => ?_
  · have hp := pos y hy
    change DifferentiableAt ℝ (fun y => D2GDS0DP) y
    try simp only [D2GDS0DP, zero_mul, mul_zero, add_zero, zero_add, sub_zero]
    ddq
  · have hp := pos y hy
    have h := c_D2GDS0DP (hl y u ((.inl iT))) (hl y u ((.inl iP))) (hl y u ((.inl (.inl 0)))) (hl y u ((.inl (.inl
        1)))) (hl y u ((.inl (.inl 2)))) (hl y u ((.inl (.inl 3)))) (hl y u ((.inr 0))) (hl y u
        ((.inr 1))) (hl y u ((.inr 2)))
    try simp only [zero_mul, add_zero] at h
    refine h.congr_deriv ?_
    rw [sum_var]; simp only [Fin.sum_univ_four, Fin.sum_univ_three]; rfl

lemma gr_d2gds2_1_1 (y : Var 4 3 → ℝ) (hy : Dom y) :
    Gr (fun y => (tables (raw y) y).d2gds2 1 1) y ((tables (raw y) y).at3 (.inr 1) (.inr 1)) := by
  refine Gr.of_lines ?_ fun u => ?_
  · have hp := pos y hy
    change DifferentiableAt ℝ (fun y => D2GDS1S1 (y (.inl iT)) (raw y 1) (raw y 2) (raw y 5) (raw y 6)) y
    have d1 := raw_diff 1 y
    have q1 := hp.2.1
    have n1 := q1.ne'
    have d2 := raw_diff 2 y
    have q2 := hp.2.2.1
    have n2 := q2.ne'
    have d5 := raw_diff 5 y
    have q5 := hp.2.2.2.2.2.1
    have n5 := q5.ne'
    have d6 := raw_diff 6 y
    have q6 := hp.2.2.2.2.2.2.1
    have n6 := q6.ne'
    try simp only [D2GDS1S1, zero_mul, mul_zero, add_zero, zero_add, sub_zero]
    ddq
  · have hp := pos y hy
    have h := c_D2GDS1S1 (hl y u ((.inl iT))) (hl y u ((.inl iP))) (hl y u ((.inl (.inl 0)))) (hl y u ((.inl (.inl
        1)))) (hl y u ((.inl (.inl 2)))) (hl y u ((.inl (.inl 3)))) (hl y u ((.inr 0))) (hl y u
        ((.inr 1))) (hl y u ((.inr 2))) (raw_line1 y u) (by simpa only [zero_mul, add_zero] using
        hp.2.1) (raw_line2 y u) (by simpa only [zero_mul, add_zero] using hp.2.2.1) (raw_line5 y
        u) (by simpa only [zero_mul, add_zero] using hp.2.2.2.2.2.1) (raw_line6 y u) (by simpa
        only [zero_mul, add_zero] using hp.2.2.2.2.2.2.1)
    try simp only [zero_mul, add_zero] at h
    refine h.congr_deriv ?_
    rw [sum_var]; simp only [Fin.sum_univ_four, Fin.sum_univ_three]; rfl

lemma gr_d2gds2_1_2 (y : Var 4 3 → ℝ) (hy : Dom y) :
    Gr (fun y => (tables (raw y) y).d2gds2 1 2) y ((tables (raw y) y).at3 (.inr 1) (.inr 2)) := by
  refine Gr.of_lines ?_ fun u => ?_
  · have hp := pos y hy
    change DifferentiableAt ℝ (fun y => D2GDS1S2 (y (.inl iT)) (raw y 1) (raw y 5)) y
    have d1 := raw_diff 1 y
    have q1 := hp.2.1
    have n1 := q1.ne'
    have d5 := raw_diff 5 y
    have q5 := hp.2.2.2.2.2.1
    have n5 := q5.ne'
    try simp only [D2GDS1S2, zero_mul, mul_zero, add_zero, zero_add, sub_zero]
    ddq
  · have hp := pos y hy
    have h := c_D2GDS1S2 (hl y u ((.inl iT))) (hl y u ((.inl iP))) (hl y u ((.inl (.inl 0)))) (hl y u ((.inl (.inl
        1)))) (hl y u ((.inl (.inl 2)))) (hl y u ((.inl (.inl 3)))) (hl y u ((.inr 0))) (hl y u
        ((.inr 1))) (hl y u ((.inr 2))) (raw_line1 y u) (by simpa only [zero_mul, add_zero] using
        hp.2.1) (raw_line5 y u) (by simpa only [zero_mul, add_zero] using hp.2.2.2.2.2.1)
    try simp only [zero_mul, add_zero] at h
    refine h.congr_deriv ?_
    rw [sum_var]; simp only [Fin.sum_univ_four, Fin.sum_univ_three]; rfl

lemma gr_d2gdsdt_1 (y : Var 4 3 → ℝ) (hy : Dom y) :
    Gr (fun y => (tables (raw y) y).d2gdsdt 1) y ((tables (raw y) y).at3 (.inr 1) (.inl iT)) := by
  refine Gr.of_lines ?_ fun u => ?_
  · have hp := pos y hy
    change DifferentiableAt ℝ (fun y => D2GDS1DT (raw y 1) (raw y 2) (raw y 5) (raw y 6)) y
    have d1 := raw_diff 1 y
    have q1 := hp.2.1
    have n1 := q1.ne'
    have d2 := raw_diff 2 y
    have q2 := hp.2.2.1
    have n2 := q2.ne'
    have d5 := raw_diff 5 y
    have q5 := hp.2.2.2.2.2.1
    have n5 := q5.ne'
    have d6 := raw_diff 6 y
    have q6 := hp.2.2.2.2.2.2.1
    have n6 := q6.ne'
    try simp only [D2GDS1DT, zero_mul, mul_zero, add_zero, zero_add, sub_zero]
    ddq
  · have hp := pos y hy
    have h := c_D2GDS1DT (hl y u ((.inl iT))) (hl y u ((.inl iP))) (hl y u ((.inl (.inl 0)))) (hl y u ((.inl (.inl
        1)))) (hl y u ((.inl (.inl 2)))) (hl y u ((.inl (.inl 3)))) (hl y u ((.inr 0))) (hl y u
        ((.inr 1))) (hl y u ((.inr 2))) (raw_line1 y u) (by simpa only [zero_mul, add_zero] using
        hp.2.1) (raw_line2 y u) (by simpa only [zero_mul, add_zero] using hp.2.2.1) (raw_line5 y
        u) (by simpa only [zero_mul, add_zero] using hp.2.2.2.2.2.1) (raw_line6 y u) (by simpa
        only [zero_mul, add_zero] using hp.2.2.2.2.2.2.1)
    try simp only [zero_mul, add_zero] at h
    refine h.congr_deriv ?_
    rw [sum_var]; simp only [Fin.sum_univ_four, Fin.sum_univ_three]; rfl

lemma gr_d2gdsdp_1 (y : Var 4 3 → ℝ) (hy : Dom y) :
    Gr (fun y => (tables (raw y) y).d2gdsdp 1) y ((tables (raw y) y).at3 (.inr 1) (.inl iP)) := by
  refine Gr.of_lines ?_ fun u => ?_
  · have hp := pos y hy
    change DifferentiableAt ℝ (fun y => D2GDS1DP) y
    try simp only [D2GDS1DP, zero_mul, mul_zero, add_zero, zero_add, sub_zero]
    ddq
  · have hp := pos y hy
    have h := c_D2GDS1DP (hl y u ((.inl iT))) (hl y u ((.inl iP))) (hl y u ((.inl (.inl 0)))) (hl y u ((.inl (.inl
        1)))) (hl y u ((.inl (.inl 2)))) (hl y u ((.inl (.inl 3)))) (hl y u ((.inr 0))) (hl y u
        ((.inr 1))) (hl y u ((.inr 2)))
    try simp only [zero_mul, add_zero] at h
    refine h.congr_deriv ?_
    rw [sum_var]; simp only [Fin.sum_univ_four, Fin.sum_univ_three]; rfl

lemma gr_d2gds2_2_2 (y : Var 4 3 → ℝ) (hy : Dom y) :
    Gr (fun y => (tables (raw y) y).d2gds2 2 2) y ((tables (raw y) y).at3 (.inr 2) (.inr 2)) := by
  refine Gr.of_lines ?_ fun u => ?_
  · have hp := pos y hy
    change DifferentiableAt ℝ (fun y => D2GDS2S2 (y (.inl iT)) (raw y 1) (raw y 3) (raw y 5) (raw y 7)) y
    have d1 := raw_diff 1 y
    have q1 := hp.2.1
    have n1 := q1.ne'
    have d3 := raw_diff 3 y
    have q3 := hp.2.2.2.1
    have n3 := q3.ne'
    have d5 := raw_diff 5 y
    have q5 := hp.2.2.2.2.2.1
    have n5 := q5.ne'
    have d7 := raw_diff 7 y
    have q7 := hp.2.2.2.2.2.2.2.1
    have n7 := q7.ne'
    try simp only [D2GDS2S2, zero_mul, mul_zero, add_zero, zero_add, sub_zero]
    ddq
  · have hp := pos y hy
    have h := c_D2GDS2S2 (hl y u ((.inl iT))) (hl y u ((.inl iP))) (hl y u ((.inl (.inl 0)))) (hl y u ((.inl (.inl
        1)))) (hl y u ((.inl (.inl 2)))) (hl y u ((.inl (.inl 3)))) (hl y u ((.inr 0))) (hl y u
        ((.inr 1))) (hl y u ((.inr 2))) (raw_line1 y u) (by simpa only [zero_mul, add_zero] using
        hp.2.1) (raw_line3 y u) (by simpa only [zero_mul, add_zero] using hp.2.2.2.1) (raw_line5 y
        u) (by simpa only [zero_mul, add_zero] using hp.2.2.2.2.2.1) (raw_line7 y u) (by simpa
        only [zero_mul, add_zero] using hp.2.2.2.2.2.2.2.1)
    try simp only [zero_mul, add_zero] at h
    refine h.congr_deriv ?_
    rw [sum_var]; simp only [Fin.sum_univ_four, Fin.sum_univ_three]; rfl

lemma gr_d2gdsdt_2 (y : Var 4 3 → ℝ) (hy : Dom y) :
    Gr (fun y => (tables (raw y) y).d2gdsdt 2) y ((tables (raw y) y).at3 (.inr 2) (.inl iT)) := by
  refine Gr.of_lines ?_ fun u => ?_
  · have hp := pos y hy
    change DifferentiableAt ℝ (fun y => D2GDS2DT (raw y 1) (raw y 3) (raw y 5) (raw y 7)) y
    have d1 := raw_diff 1 y
    have q1 := hp.2.1
    have n1 := q1.ne'
    have d3 := raw_diff 3 y
    have q3 := hp.2.2.2.1
    have n3 := q3.ne'
    have d5 := raw_diff 5 y
    have q5 := hp.2.2.2.2.2.1
    have n5 := q5.ne'
    have d7 := raw_diff 7 y
    have q7 := hp.2.2.2.2.2.2.2.1
    have n7 := q7.ne'
    try simp only [D2GDS2DT, zero_mul, mul_zero, add_zero, zero_add, sub_zero]
    ddq
  · have hp := pos y hy
    have h := c_D2GDS2DT (hl y u ((.inl iT))) (hl y u ((.inl iP))) (hl y u ((.inl (.inl 0)))) (hl y u ((.inl (.inl
        1)))) (hl y u ((.inl (.inl 2)))) (hl y u ((.inl (.inl 3)))) (hl y u ((.inr 0))) (hl y u
        ((.inr 1))) (hl y u ((.inr 2))) (raw_line1 y u) (by simpa only [zero_mul, add_zero] using
        hp.2.1) (raw_line3 y u) (by simpa only [zero_mul, add_zero] using hp.2.2.2.1) (raw_line5 y
        u) (by simpa only [zero_mul, add_zero] using hp.2.2.2.2.2.1) (raw_line7 y u) (by simpa
        only [zero_mul, add_zero] using hp.2.2.2.2.2.2.2.1)
    try simp only [zero_mul, add_zero] at h
    refine h.congr_deriv ?_
    rw [sum_var]; simp only [Fin.sum_univ_four, Fin.sum_univ_three]; rfl

lemma gr_d2gdsdp_2 (y : Var 4 3 → ℝ) (hy : Dom y) :
    Gr (fun y => (tables (raw y) y).d2gdsdp 2) y ((tables (raw y) y).at3 (.inr 2) (.inl iP)) := by
  refine Gr.of_lines ?_ fun u => ?_
  · have hp := pos y hy
    change DifferentiableAt ℝ (fun y => D2GDS2DP) y
    try simp only [D2GDS2DP, zero_mul, mul_zero, add_zero, zero_add, sub_zero]
    ddq
  · have hp := pos y hy
    have h := c_D2GDS2DP (hl y u ((.inl iT))) (hl y u ((.inl iP))) (hl y u ((.inl (.inl 0)))) (hl y u ((.inl (.inl
        1)))) (hl y u ((.inl (.inl 2)))) (hl y u ((.inl (.inl 3)))) (hl y u ((.inr 0))) (hl y u
        ((.inr 1))) (hl y u ((.inr 2)))
    try simp only [zero_mul, add_zero] at h
    refine h.congr_deriv ?_
    rw [sum_var]; simp only [Fin.sum_univ_four, Fin.sum_univ_three]; rfl

lemma gr_d2gdt2 (y : Var 4 3 → ℝ) (hy : Dom y) :
    Gr (fun y => (tables (raw y) y).d2gdt2) y ((tables (raw y) y).at3 (.inl iT) (.inl iT)) := by
  refine Gr.of_lines ?_ fun u => ?_
  · have hp := pos y hy
    change DifferentiableAt ℝ (fun y => D2GDT2) y
    try simp only [D2GDT2, zero_mul, mul_zero, add_zero, zero_add, sub_zero]
    ddq
  · have hp := pos y hy
    have h := c_D2GDT2 (hl y u ((.inl iT))) (hl y u ((.inl iP))) (hl y u ((.inl (.inl 0)))) (hl y u ((.inl (.inl
        1)))) (hl y u ((.inl (.inl 2)))) (hl y u ((.inl (.inl 3)))) (hl y u ((.inr 0))) (hl y u
        ((.inr 1))) (hl y u ((.inr 2)))
    try simp only [zero_mul, add_zero] at h
    refine h.congr_deriv ?_
    rw [sum_var]; simp only [Fin.sum_univ_four, Fin.sum_univ_three]; rfl

lemma gr_d2gdtdp (y : Var 4 3 → ℝ) (hy : Dom y) :
    Gr (fun y => (tables (raw y) y).d2gdtdp) y ((tables (raw y) y).at3 (.inl iT) (.inl iP)) := by
  refine Gr.of_lines ?_ fun u => ?_
  · have hp := pos y hy
    change DifferentiableAt ℝ (fun y => D2GDTDP) y
    try simp only [D2GDTDP, zero_mul, mul_zero, add_zero, zero_add, sub_zero]
    ddq
  · have hp := pos y hy
    have h := c_D2GDTDP (hl y u ((.inl iT))) (hl y u ((.inl iP))) (hl y u ((.inl (.inl 0)))) (hl y u ((.inl (.inl
        1)))) (hl y u ((.inl (.inl 2)))) (hl y u ((.inl (.inl 3)))) (hl y u ((.inr 0))) (hl y u
        ((.inr 1))) (hl y u ((.inr 2)))
    try simp only [zero_mul, add_zero] at h
    refine h.congr_deriv ?_
    rw [sum_var]; simp only [Fin.sum_univ_four, Fin.sum_univ_three]; rfl

lemma gr_d2gdp2 (y : Var 4 3 → ℝ) (hy : Dom y) :
    Gr (fun y => (tables (raw y) y).d2gdp2) y ((tables (raw y) y).at3 (.inl iP) (.inl iP)) := by
  refine Gr.of_lines ?_ fun u => ?_
  · have hp := pos y hy
    change DifferentiableAt ℝ (fun y => D2GDP2) y
    try simp only [D2GDP2, zero_mul, mul_zero, add_zero, zero_add, sub_zero]
    ddq
  · have hp := pos y hy
    have h := c_D2GDP2 (hl y u ((.inl iT))) (hl y u ((.inl iP))) (hl y u ((.inl (.inl 0)))) (hl y u ((.inl (.inl
        1)))) (hl y u ((.inl (.inl 2)))) (hl y u ((.inl (.inl 3)))) (hl y u ((.inr 0))) (hl y u
        ((.inr 1))) (hl y u ((.inr 2)))
    try simp only [zero_mul, add_zero] at h
    refine h.congr_deriv ?_
    rw [sum_var]; simp only [Fin.sum_univ_four, Fin.sum_univ_three]; rfl

lemma symm (x : Fin 10 → ℝ) (y : Var 4 3 → ℝ) : (tables x y).Symm := by
  constructor
  · intro i j; fin_cases i <;> fin_cases j <;> rfl
  · intro i j; fin_cases i <;> fin_cases j <;> rfl
  · intro i j k; fin_cases i <;> fin_cases j <;> fin_cases k <;> exact ⟨rfl, rfl⟩
  · intro i j k; fin_cases i <;> fin_cases j <;> fin_cases k <;> rfl
  · intro i j; fin_cases i <;> fin_cases j <;> rfl
  · intro i j; fin_cases i <;> fin_cases j <;> rfl
  · intro i j k; fin_cases i <;> fin_cases j <;> fin_cases k <;> rfl
  · intro i j k; fin_cases i <;> fin_cases j <;> fin_cases k <;> exact ⟨rfl, rfl⟩
  · intro i j; fin_cases i <;> fin_cases j <;> rfl
  · intro i j; fin_cases i <;> fin_cases j <;> rfl

lemma ok_raw : (jets fun y => tables (raw y) y).Ok Dom := by
  refine jets_ok (fun y _ => symm (raw y) y) gr_g ?_ gr_dgdt gr_dgdp ?_ ?_ ?_ ?_ ?_ ?_ ?_ ?_ gr_d2gdt2 gr_d2gdtdp gr_d2gdp2
  · intro y hy i
    fin_cases i
    · exact gr_dgdr_0 y hy
    · exact gr_dgdr_1 y hy
    · exact gr_dgdr_2 y hy
    · exact gr_dgdr_3 y hy
  · intro y hy i
    fin_cases i
    · exact gr_dgds_0 y hy
    · exact gr_dgds_1 y hy
    · exact gr_dgds_2 y hy
  · intro y hy i j
    fin_cases i <;> fin_cases j
    · exact gr_d2gdr2_0_0 y hy
    · exact gr_d2gdr2_0_1 y hy
    · exact gr_d2gdr2_0_2 y hy
    · exact gr_d2gdr2_0_3 y hy
    · exact (gr_d2gdr2_0_1 y hy).congr_d (funext fun k => ((symm (raw y) y).at3 _ _ k).1)
    · exact gr_d2gdr2_1_1 y hy
    · exact gr_d2gdr2_1_2 y hy
    · exact gr_d2gdr2_1_3 y hy
    · exact (gr_d2gdr2_0_2 y hy).congr_d (funext fun k => ((symm (raw y) y).at3 _ _ k).1)
    · exact (gr_d2gdr2_1_2 y hy).congr_d (funext fun k => ((symm (raw y) y).at3 _ _ k).1)
    · exact gr_d2gdr2_2_2 y hy
    · exact gr_d2gdr2_2_3 y hy
    · exact (gr_d2gdr2_0_3 y hy).congr_d (funext fun k => ((symm (raw y) y).at3 _ _ k).1)
    · exact (gr_d2gdr2_1_3 y hy).congr_d (funext fun k => ((symm (raw y) y).at3 _ _ k).1)
    · exact (gr_d2gdr2_2_3 y hy).congr_d (funext fun k => ((symm (raw y) y).at3 _ _ k).1)
    · exact gr_d2gdr2_3_3 y hy
  · intro y hy i j
    fin_cases i <;> fin_cases j
    · exact gr_d2gdrds_0_0 y hy
    · exact gr_d2gdrds_0_1 y hy
    · exact gr_d2gdrds_0_2 y hy
    · exact gr_d2gdrds_1_0 y hy
    · exact gr_d2gdrds_1_1 y hy
    · exact gr_d2gdrds_1_2 y hy
    · exact gr_d2gdrds_2_0 y hy
    · exact gr_d2gdrds_2_1 y hy
    · exact gr_d2gdrds_2_2 y hy
    · exact gr_d2gdrds_3_0 y hy
    · exact gr_d2gdrds_3_1 y hy
    · exact gr_d2gdrds_3_2 y hy
  · intro y hy i
    fin_cases i
    · exact gr_d2gdrdt_0 y hy
    · exact gr_d2gdrdt_1 y hy
    · exact gr_d2gdrdt_2 y hy
    · exact gr_d2gdrdt_3 y hy
  · intro y hy i
    fin_cases i
    · exact gr_d2gdrdp_0 y hy
    · exact gr_d2gdrdp_1 y hy
    · exact gr_d2gdrdp_2 y hy
    · exact gr_d2gdrdp_3 y hy
  · intro y hy i j
    fin_cases i <;> fin_cases j
    · exact gr_d2gds2_0_0 y hy
    · exact gr_d2gds2_0_1 y hy
    · exact gr_d2gds2_0_2 y hy
    · exact (gr_d2gds2_0_1 y hy).congr_d (funext fun k => ((symm (raw y) y).at3 _ _ k).1)
    · exact gr_d2gds2_1_1 y hy
    · exact gr_d2gds2_1_2 y hy
    · exact (gr_d2gds2_0_2 y hy).congr_d (funext fun k => ((symm (raw y) y).at3 _ _ k).1)
    · exact (gr_d2gds2_1_2 y hy).congr_d (funext fun k => ((symm (raw y) y).at3 _ _ k).1)
    · exact gr_d2gds2_2_2 y hy
  · intro y hy i
    fin_cases i
    · exact gr_d2gdsdt_0 y hy
    · exact gr_d2gdsdt_1 y hy
    · exact gr_d2gdsdt_2 y hy
  · intro y hy i
    fin_cases i
    · exact gr_d2gdsdp_0 y hy
    · exact gr_d2gdsdp_1 y hy
    · exact gr_d2gdsdp_2 y hy

lemma site_eq (y : Var 4 3 → ℝ) (hy : Dom y) : site y = raw y := by
  obtain ⟨h0, h1, h2, h3, h4, h5, h6, h7, h8, h9⟩ := hy
  funext k; fin_cases k
  · exact keep_eq h0.1 h0.2
  · exact keep_eq h1.1 h1.2
  · exact keep_eq h2.1 h2.2
  · exact keep_eq h3.1 h3.2
  · exact keep_eq h4.1 h4.2
  · exact keep_eq h5.1 h5.2
  · exact keep_eq h6.1 h6.2
  · exact keep_eq h7.1 h7.2
  · exact keep_eq h8.1 h8.2
  · exact keep_eq h9.1 h9.2

lemma dom_open : IsOpen {y | Dom y} := by
  have hc : ∀ k, Continuous fun y => raw y k := fun k =>
    continuous_iff_continuousAt.2 fun y => (raw_diff k y).continuousAt
  exact ((isOpen_lt continuous_const (hc 0)).inter (isOpen_lt (hc 0) continuous_const)).inter (((isOpen_lt
    continuous_const (hc 1)).inter (isOpen_lt (hc 1) continuous_const)).inter (((isOpen_lt continuous_const (hc
    2)).inter (isOpen_lt (hc 2) continuous_const)).inter (((isOpen_lt continuous_const (hc 3)).inter (isOpen_lt
    (hc 3) continuous_const)).inter (((isOpen_lt continuous_const (hc 4)).inter (isOpen_lt (hc 4)
    continuous_const)).inter (((isOpen_lt continuous_const (hc 5)).inter (isOpen_lt (hc 5)
    continuous_const)).inter (((isOpen_lt continuous_const (hc 6)).inter (isOpen_lt (hc 6)
    continuous_const)).inter (((isOpen_lt continuous_const (hc 7)).inter (isOpen_lt (hc 7)
    continuous_const)).inter (((isOpen_lt continuous_const (hc 8)).inter (isOpen_lt (hc 8)
    continuous_const)).inter ((isOpen_lt continuous_const (hc 9)).inter (isOpen_lt (hc 9)
    continuous_const))))))))))

/-- The arrays of spinel.c are the derivatives of its Gibbs energy to third order. -/
theorem ok : (jets macros).Ok Dom :=
  ok_congr dom_open (fun y hy => by unfold macros; rw [site_eq y hy]) ok_raw

lemma entropy_eq (y : Var 4 3 → ℝ) : (jets macros).g1 y (.inl iT) = -(macros y).s := by
  change DGDT (y (.inr 2)) (site y 0) (site y 1) (site y 2) (site y 3) (site y 4) (site y 5) (site y 6) (site y 7) (site y 8) (site y 9) = -(S (y (.inr 2)) (site y 0) (site y 1) (site y 2) (site y 3) (site y 4) (site y 5) (site y 6) (site y 7) (site y 8) (site y 9))
  simp only [DGDT]

end Spinel

end

end Verif.Thermo.Ordering
