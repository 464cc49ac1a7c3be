import Verif.Thermo.OrderLogs

/-!
Rhombohedral oxide (ilmenite-hematite). Generated by /verif/tools/gen/genord.py from the macros of /repo/sources/rhombohedral.c: one definition per macro, with the
macros it mentions as definitions (the generator checks that this has the value of C's textual substitution).
-/

namespace Verif.Thermo.Ordering

open Magma.Thermo.Mixing (R)

noncomputable section

set_option linter.unusedVariables false
set_option linter.unnecessarySeqFocus false
set_option linter.unusedSimpArgs false
set_option linter.unusedTactic false
set_option linter.unreachableTactic false

namespace Rhombohedral

/-- `S`, rhombohedral.c 1275-1278. -/
def S (xfe2A xmg2A xmn2A xti4A xfe3A xfe2B xmg2B xmn2B xti4B xfe3B : ℝ) : ℝ :=
  (-R) * (xfe2A * Real.log xfe2A + xmg2A * Real.log xmg2A + xmn2A * Real.log xmn2A + xti4A * Real.log xti4A +
    xfe3A * Real.log xfe3A + xfe2B * Real.log xfe2B + xmg2B * Real.log xmg2B + xmn2B * Real.log xmn2B + xti4B *
    Real.log xti4B + xfe3B * Real.log xfe3B)

/-- `hil`, rhombohedral.c 152. -/
def hil : ℝ :=
  17000

/-- `hgk`, rhombohedral.c 153. -/
def hgk : ℝ :=
  17000

/-- `hpy`, rhombohedral.c 154. -/
def hpy : ℝ :=
  17000

/-- `wilhmDIS`, rhombohedral.c 163. -/
def wilhmDIS : ℝ :=
  5000

/-- `wilgkDIS`, rhombohedral.c 155. -/
def wilgkDIS : ℝ :=
  25000

/-- `wilpyDIS`, rhombohedral.c 159. -/
def wilpyDIS : ℝ :=
  2200

/-- `wgkhmDIS`, rhombohedral.c 165. -/
def wgkhmDIS : ℝ :=
  5000

/-- `wgkpyDIS`, rhombohedral.c 167. -/
def wgkpyDIS : ℝ :=
  25000

/-- `wpyhmDIS`, rhombohedral.c 171. -/
def wpyhmDIS : ℝ :=
  5000

/-- `dwilhm`, rhombohedral.c 164. -/
def dwilhm : ℝ :=
  -19000

/-- `dwgkhm`, rhombohedral.c 166. -/
def dwgkhm : ℝ :=
  -19000

/-- `dwpyhm`, rhombohedral.c 172. -/
def dwpyhm : ℝ :=
  -19000

/-- `dwilgk`, rhombohedral.c 157. -/
def dwilgk : ℝ :=
  12000

/-- `dwilpy`, rhombohedral.c 161. -/
def dwilpy : ℝ :=
  17000

/-- `dwgkil`, rhombohedral.c 158. -/
def dwgkil : ℝ :=
  8000

/-- `dwgkpy`, rhombohedral.c 169. -/
def dwgkpy : ℝ :=
  8000

/-- `dwpyil`, rhombohedral.c 162. -/
def dwpyil : ℝ :=
  17000

/-- `dwpygk`, rhombohedral.c 170. -/
def dwpygk : ℝ :=
  12000

/-- `wilgkORD`, rhombohedral.c 156. -/
def wilgkORD : ℝ :=
  5000

/-- `wilpyORD`, rhombohedral.c 160. -/
def wilpyORD : ℝ :=
  2200

/-- `wgkpyORD`, rhombohedral.c 168. -/
def wgkpyORD : ℝ :=
  5000

/-- `H`, rhombohedral.c 1279-1291. -/
def H (r0 r1 r2 s0 s1 s2 : ℝ) : ℝ :=
  hil * (r0 - s0 * s0) + hgk * (r1 - s1 * s1) + hpy * (r2 - s2 * s2) + wilhmDIS * r0 * (1 - r0 - r1 - r2) +
    wilgkDIS * r0 * r1 + wilpyDIS * r0 * r2 + wgkhmDIS * r1 * (1 - r0 - r1 - r2) + wgkpyDIS * r1 * r2 + wpyhmDIS
    * r2 * (1 - r0 - r1 - r2) - 2 * s0 * s0 * (1 - r0 - r1 - r2) * (dwilhm + hil) - 2 * s1 * s1 * (1 - r0 - r1 -
    r2) * (dwgkhm + hgk) - 2 * s2 * s2 * (1 - r0 - r1 - r2) * (dwpyhm + hpy) + 2 * s0 * s0 * r1 * (dwilgk - hil)
    + 2 * s0 * s0 * r2 * (dwilpy - hil) + 2 * s1 * s1 * r0 * (dwgkil - hgk) + 2 * s1 * s1 * r2 * (dwgkpy - hgk)
    + 2 * s2 * s2 * r0 * (dwpyil - hpy) + 2 * s2 * s2 * r1 * (dwpygk - hpy) + s0 * s1 * (wilgkORD - wilgkDIS -
    dwilgk - dwgkil) + s0 * s2 * (wilpyORD - wilpyDIS - dwilpy - dwpyil) + s1 * s2 * (wgkpyORD - wgkpyDIS -
    dwgkpy - dwpygk)

/-- `G`, rhombohedral.c 1292. -/
def G (t r0 r1 r2 s0 s1 s2 xfe2A xmg2A xmn2A xti4A xfe3A xfe2B xmg2B xmn2B xti4B xfe3B : ℝ) : ℝ :=
  H r0 r1 r2 s0 s1 s2 - t * (S xfe2A xmg2A xmn2A xti4A xfe3A xfe2B xmg2B xmn2B xti4B xfe3B)

/-- `DGDR0`, rhombohedral.c 1296-1302. -/
def DGDR0 (t r0 r1 r2 s0 s1 s2 xfe2A xti4A xfe3A xfe2B xti4B xfe3B : ℝ) : ℝ :=
  R * t * ((1 / 2) * Real.log xfe2A + (1 / 2) * Real.log xti4A - Real.log xfe3A + (1 / 2) * Real.log xfe2B +
    (1 / 2) * Real.log xti4B - Real.log xfe3B) + hil + wilhmDIS * (1 - 2 * r0 - r1 - r2) + wilgkDIS * r1 +
    wilpyDIS * r2 - wgkhmDIS * r1 - wpyhmDIS * r2 + 2 * s0 * s0 * (dwilhm + hil) + 2 * s1 * s1 * (dwgkhm + hgk)
    + 2 * s2 * s2 * (dwpyhm + hpy) + 2 * s1 * s1 * (dwgkil - hgk) + 2 * s2 * s2 * (dwpyil - hpy)

/-- `DGDR1`, rhombohedral.c 1303-1309. -/
def DGDR1 (t r0 r1 r2 s0 s1 s2 xmg2A xti4A xfe3A xmg2B xti4B xfe3B : ℝ) : ℝ :=
  R * t * ((1 / 2) * Real.log xmg2A + (1 / 2) * Real.log xti4A - Real.log xfe3A + (1 / 2) * Real.log xmg2B +
    (1 / 2) * Real.log xti4B - Real.log xfe3B) + hgk - wilhmDIS * r0 + wilgkDIS * r0 + wgkhmDIS * (1 - r0 - 2 *
    r1 - r2) + wgkpyDIS * r2 - wpyhmDIS * r2 + 2 * s0 * s0 * (dwilhm + hil) + 2 * s1 * s1 * (dwgkhm + hgk) + 2 *
    s2 * s2 * (dwpyhm + hpy) + 2 * s0 * s0 * (dwilgk - hil) + 2 * s2 * s2 * (dwpygk - hpy)

/-- `DGDR2`, rhombohedral.c 1310-1316. -/
def DGDR2 (t r0 r1 r2 s0 s1 s2 xmn2A xti4A xfe3A xmn2B xti4B xfe3B : ℝ) : ℝ :=
  R * t * ((1 / 2) * Real.log xmn2A + (1 / 2) * Real.log xti4A - Real.log xfe3A + (1 / 2) * Real.log xmn2B +
    (1 / 2) * Real.log xti4B - Real.log xfe3B) + hpy - wilhmDIS * r0 + wilpyDIS * r0 - wgkhmDIS * r1 + wgkpyDIS
    * r1 + wpyhmDIS * (1 - r0 - r1 - 2 * r2) + 2 * s0 * s0 * (dwilhm + hil) + 2 * s1 * s1 * (dwgkhm + hgk) + 2 *
    s2 * s2 * (dwpyhm + hpy) + 2 * s0 * s0 * (dwilpy - hil) + 2 * s1 * s1 * (dwgkpy - hgk)

/-- `DGDS0`, rhombohedral.c 1317-1321. -/
def DGDS0 (t r0 r1 r2 s0 s1 s2 xfe2A xti4A xfe2B xti4B : ℝ) : ℝ :=
  (1 / 2) * R * t * (Real.log xfe2A - Real.log xti4A - Real.log xfe2B + Real.log xti4B) - 2 * hil * s0 - 4 *
    s0 * (1 - r0 - r1 - r2) * (dwilhm + hil) + 4 * s0 * r1 * (dwilgk - hil) + 4 * s0 * r2 * (dwilpy - hil) + s1
    * (wilgkORD - wilgkDIS - dwilgk - dwgkil) + s2 * (wilpyORD - wilpyDIS - dwilpy - dwpyil)

/-- `DGDS1`, rhombohedral.c 1322-1326. -/
def DGDS1 (t r0 r1 r2 s0 s1 s2 xmg2A xti4A xmg2B xti4B : ℝ) : ℝ :=
  (1 / 2) * R * t * (Real.log xmg2A - Real.log xti4A - Real.log xmg2B + Real.log xti4B) - 2 * hgk * s1 - 4 *
    s1 * (1 - r0 - r1 - r2) * (dwgkhm + hgk) + 4 * s1 * r0 * (dwgkil - hgk) + 4 * s1 * r2 * (dwgkpy - hgk) + s0
    * (wilgkORD - wilgkDIS - dwilgk - dwgkil) + s2 * (wgkpyORD - wgkpyDIS - dwgkpy - dwpygk)

/-- `DGDS2`, rhombohedral.c 1327-1331. -/
def DGDS2 (t r0 r1 r2 s0 s1 s2 xmn2A xti4A xmn2B xti4B : ℝ) : ℝ :=
  (1 / 2) * R * t * (Real.log xmn2A - Real.log xti4A - Real.log xmn2B + Real.log xti4B) - 2 * hpy * s2 - 4 *
    s2 * (1 - r0 - r1 - r2) * (dwpyhm + hpy) + 4 * s2 * r0 * (dwpyil - hpy) + 4 * s2 * r1 * (dwpygk - hpy) + s0
    * (wilpyORD - wilpyDIS - dwilpy - dwpyil) + s1 * (wgkpyORD - wgkpyDIS - dwgkpy - dwpygk)

/-- `DGDT`, rhombohedral.c 1332. -/
def DGDT (xfe2A xmg2A xmn2A xti4A xfe3A xfe2B xmg2B xmn2B xti4B xfe3B : ℝ) : ℝ :=
  -(S xfe2A xmg2A xmn2A xti4A xfe3A xfe2B xmg2B xmn2B xti4B xfe3B)

/-- `DGDP`, rhombohedral.c 1333. -/
def DGDP : ℝ :=
  0

/-- `D2GDR0R0`, rhombohedral.c 1337-1338. -/
def D2GDR0R0 (t xfe2A xti4A xfe3A xfe2B xti4B xfe3B : ℝ) : ℝ :=
  R * t * ((1 / 4) / xfe2A + (1 / 4) / xti4A + 1 / xfe3A + (1 / 4) / xfe2B + (1 / 4) / xti4B + 1 / xfe3B) - 2
    * wilhmDIS

/-- `D2GDR0R1`, rhombohedral.c 1339-1340. -/
def D2GDR0R1 (t xti4A xfe3A xti4B xfe3B : ℝ) : ℝ :=
  R * t * ((1 / 4) / xti4A + 1 / xfe3A + (1 / 4) / xti4B + 1 / xfe3B) - wilhmDIS + wilgkDIS - wgkhmDIS

/-- `D2GDR0R2`, rhombohedral.c 1341-1342. -/
def D2GDR0R2 (t xti4A xfe3A xti4B xfe3B : ℝ) : ℝ :=
  R * t * ((1 / 4) / xti4A + 1 / xfe3A + (1 / 4) / xti4B + 1 / xfe3B) - wilhmDIS + wilpyDIS - wpyhmDIS

/-- `D2GDR0S0`, rhombohedral.c 1343-1344. -/
def D2GDR0S0 (t s0 xfe2A xti4A xfe2B xti4B : ℝ) : ℝ :=
  (1 / 4) * R * t * (1 / xfe2A - 1 / xti4A - 1 / xfe2B + 1 / xti4B) + 4 * s0 * (dwilhm + hil)

/-- `D2GDR0S1`, rhombohedral.c 1345-1346. -/
def D2GDR0S1 (t s1 xti4A xti4B : ℝ) : ℝ :=
  (1 / 4) * R * t * ((-1) / xti4A + 1 / xti4B) + 4 * s1 * (dwgkhm + hgk) + 4 * s1 * (dwgkil - hgk)

/-- `D2GDR0S2`, rhombohedral.c 1347-1348. -/
def D2GDR0S2 (t s2 xti4A xti4B : ℝ) : ℝ :=
  (1 / 4) * R * t * ((-1) / xti4A + 1 / xti4B) + 4 * s2 * (dwpyhm + hpy) + 4 * s2 * (dwpyil - hpy)

/-- `D2GDR0DT`, rhombohedral.c 1349-1350. -/
def D2GDR0DT (xfe2A xti4A xfe3A xfe2B xti4B xfe3B : ℝ) : ℝ :=
  R * ((1 / 2) * Real.log xfe2A + (1 / 2) * Real.log xti4A - Real.log xfe3A + (1 / 2) * Real.log xfe2B + (1 /
    2) * Real.log xti4B - Real.log xfe3B)

/-- `D2GDR0DP`, rhombohedral.c 1351. -/
def D2GDR0DP : ℝ :=
  0

/-- `D2GDR1R1`, rhombohedral.c 1353-1354. -/
def D2GDR1R1 (t xmg2A xti4A xfe3A xmg2B xti4B xfe3B : ℝ) : ℝ :=
  R * t * ((1 / 4) / xmg2A + (1 / 4) / xti4A + 1 / xfe3A + (1 / 4) / xmg2B + (1 / 4) / xti4B + 1 / xfe3B) - 2
    * wgkhmDIS

/-- `D2GDR1R2`, rhombohedral.c 1355-1356. -/
def D2GDR1R2 (t xti4A xfe3A xti4B xfe3B : ℝ) : ℝ :=
  R * t * ((1 / 4) / xti4A + 1 / xfe3A + (1 / 4) / xti4B + 1 / xfe3B) - wgkhmDIS + wgkpyDIS - wpyhmDIS

/-- `D2GDR1S0`, rhombohedral.c 1357-1358. -/
def D2GDR1S0 (t s0 xti4A xti4B : ℝ) : ℝ :=
  (1 / 4) * R * t * ((-1) / xti4A + 1 / xti4B) + 4 * s0 * (dwilhm + hil) + 4 * s0 * (dwilgk - hil)

/-- `D2GDR1S1`, rhombohedral.c 1359-1360. -/
def D2GDR1S1 (t s1 xmg2A xti4A xmg2B xti4B : ℝ) : ℝ :=
  (1 / 4) * R * t * (1 / xmg2A - 1 / xti4A - 1 / xmg2B + 1 / xti4B) + 4 * s1 * (dwgkhm + hgk)

/-- `D2GDR1S2`, rhombohedral.c 1361-1362. -/
def D2GDR1S2 (t s2 xti4A xti4B : ℝ) : ℝ :=
  (1 / 4) * R * t * ((-1) / xti4A + 1 / xti4B) + 4 * s2 * (dwpyhm + hpy) + 4 * s2 * (dwpygk - hpy)

/-- `D2GDR1DT`, rhombohedral.c 1363-1364. -/
def D2GDR1DT (xmg2A xti4A xfe3A xmg2B xti4B xfe3B : ℝ) : ℝ :=
  R * ((1 / 2) * Real.log xmg2A + (1 / 2) * Real.log xti4A - Real.log xfe3A + (1 / 2) * Real.log xmg2B + (1 /
    2) * Real.log xti4B - Real.log xfe3B)

/-- `D2GDR1DP`, rhombohedral.c 1365. -/
def D2GDR1DP : ℝ :=
  0

/-- `D2GDR2R2`, rhombohedral.c 1367-1368. -/
def D2GDR2R2 (t xmn2A xti4A xfe3A xmn2B xti4B xfe3B : ℝ) : ℝ :=
  R * t * ((1 / 4) / xmn2A + (1 / 4) / xti4A + 1 / xfe3A + (1 / 4) / xmn2B + (1 / 4) / xti4B + 1 / xfe3B) - 2
    * wpyhmDIS

/-- `D2GDR2S0`, rhombohedral.c 1369-1370. -/
def D2GDR2S0 (t s0 xti4A xti4B : ℝ) : ℝ :=
  (1 / 4) * R * t * ((-1) / xti4A + 1 / xti4B) + 4 * s0 * (dwilhm + hil) + 4 * s0 * (dwilpy - hil)

/-- `D2GDR2S1`, rhombohedral.c 1371-1372. -/
def D2GDR2S1 (t s1 xti4A xti4B : ℝ) : ℝ :=
  (1 / 4) * R * t * ((-1) / xti4A + 1 / xti4B) + 4 * s1 * (dwgkhm + hgk) + 4 * s1 * (dwgkpy - hgk)

/-- `D2GDR2S2`, rhombohedral.c 1373-1374. -/
def D2GDR2S2 (t s2 xmn2A xti4A xmn2B xti4B : ℝ) : ℝ :=
  (1 / 4) * R * t * (1 / xmn2A - 1 / xti4A - 1 / xmn2B + 1 / xti4B) + 4 * s2 * (dwpyhm + hpy)

/-- `D2GDR2DT`, rhombohedral.c 1375-1376. -/
def D2GDR2DT (xmn2A xti4A xfe3A xmn2B xti4B xfe3B : ℝ) : ℝ :=
  R * ((1 / 2) * Real.log xmn2A + (1 / 2) * Real.log xti4A - Real.log xfe3A + (1 / 2) * Real.log xmn2B + (1 /
    2) * Real.log xti4B - Real.log xfe3B)

/-- `D2GDR2DP`, rhombohedral.c 1377. -/
def D2GDR2DP : ℝ :=
  0

/-- `D2GDS0S0`, rhombohedral.c 1379-1381. -/
def D2GDS0S0 (t r0 r1 r2 xfe2A xti4A xfe2B xti4B : ℝ) : ℝ :=
  (1 / 4) * R * t * (1 / xfe2A + 1 / xti4A + 1 / xfe2B + 1 / xti4B) - 2 * hil - 4 * (1 - r0 - r1 - r2) *
    (dwilhm + hil) + 4 * r1 * (dwilgk - hil) + 4 * r2 * (dwilpy - hil)

/-- `D2GDS0S1`, rhombohedral.c 1382-1383. -/
def D2GDS0S1 (t xti4A xti4B : ℝ) : ℝ :=
  (1 / 4) * R * t * (1 / xti4A + 1 / xti4B) + (wilgkORD - wilgkDIS - dwilgk - dwgkil)

/-- `D2GDS0S2`, rhombohedral.c 1384-1385. -/
def D2GDS0S2 (t xti4A xti4B : ℝ) : ℝ :=
  (1 / 4) * R * t * (1 / xti4A + 1 / xti4B) + (wilpyORD - wilpyDIS - dwilpy - dwpyil)

/-- `D2GDS0DT`, rhombohedral.c 1386. -/
def D2GDS0DT (xfe2A xti4A xfe2B xti4B : ℝ) : ℝ :=
  (1 / 2) * R * (Real.log xfe2A - Real.log xti4A - Real.log xfe2B + Real.log xti4B)

/-- `D2GDS0DP`, rhombohedral.c 1387. -/
def D2GDS0DP : ℝ :=
  0

/-- `D2GDS1S1`, rhombohedral.c 1389-1391. -/
def D2GDS1S1 (t r0 r1 r2 xmg2A xti4A xmg2B xti4B : ℝ) : ℝ :=
  (1 / 4) * R * t * (1 / xmg2A + 1 / xti4A + 1 / xmg2B + 1 / xti4B) - 2 * hgk - 4 * (1 - r0 - r1 - r2) *
    (dwgkhm + hgk) + 4 * r0 * (dwgkil - hgk) + 4 * r2 * (dwgkpy - hgk)

/-- `D2GDS1S2`, rhombohedral.c 1392-1393. -/
def D2GDS1S2 (t xti4A xti4B : ℝ) : ℝ :=
  (1 / 4) * R * t * (1 / xti4A + 1 / xti4B) + (wgkpyORD - wgkpyDIS - dwgkpy - dwpygk)

/-- `D2GDS1DT`, rhombohedral.c 1394. -/
def D2GDS1DT (xmg2A xti4A xmg2B xti4B : ℝ) : ℝ :=
  (1 / 2) * R * (Real.log xmg2A - Real.log xti4A - Real.log xmg2B + Real.log xti4B)

/-- `D2GDS1DP`, rhombohedral.c 1395. -/
def D2GDS1DP : ℝ :=
  0

/-- `D2GDS2S2`, rhombohedral.c 1397-1399. -/
def D2GDS2S2 (t r0 r1 r2 xmn2A xti4A xmn2B xti4B : ℝ) : ℝ :=
  (1 / 4) * R * t * (1 / xmn2A + 1 / xti4A + 1 / xmn2B + 1 / xti4B) - 2 * hpy - 4 * (1 - r0 - r1 - r2) *
    (dwpyhm + hpy) + 4 * r0 * (dwpyil - hpy) + 4 * r1 * (dwpygk - hpy)

/-- `D2GDS2DT`, rhombohedral.c 1400. -/
def D2GDS2DT (xmn2A xti4A xmn2B xti4B : ℝ) : ℝ :=
  (1 / 2) * R * (Real.log xmn2A - Real.log xti4A - Real.log xmn2B + Real.log xti4B)

/-- `D2GDS2DP`, rhombohedral.c 1401. -/
def D2GDS2DP : ℝ :=
  0

/-- `D2GDT2`, rhombohedral.c 1403. -/
def D2GDT2 : ℝ :=
  0

/-- `D2GDTDP`, rhombohedral.c 1404. -/
def D2GDTDP : ℝ :=
  0

/-- `D2GDP2`, rhombohedral.c 1405. -/
def D2GDP2 : ℝ :=
  0

/-- `D3GDR0R0R0`, rhombohedral.c 1409-1411. -/
def D3GDR0R0R0 (t xfe2A xti4A xfe3A xfe2B xti4B xfe3B : ℝ) : ℝ :=
  (-(1 / 8)) * R * t * (1 / xfe2A ^ 2 + 1 / xti4A ^ 2 - 8 / xfe3A ^ 2 + 1 / xfe2B ^ 2 + 1 / xti4B ^ 2 - 8 /
    xfe3B ^ 2)

/-- `D3GDR0R0R1`, rhombohedral.c 1412-1413. -/
def D3GDR0R0R1 (t xti4A xfe3A xti4B xfe3B : ℝ) : ℝ :=
  (-(1 / 8)) * R * t * (1 / xti4A ^ 2 - 8 / xfe3A ^ 2 + 1 / xti4B ^ 2 - 8 / xfe3B ^ 2)

/-- `D3GDR0R0S0`, rhombohedral.c 1414-1415. -/
def D3GDR0R0S0 (t xfe2A xti4A xfe2B xti4B : ℝ) : ℝ :=
  (-(1 / 8)) * R * t * (1 / xfe2A ^ 2 - 1 / xti4A ^ 2 - 1 / xfe2B ^ 2 + 1 / xti4B ^ 2)

/-- `D3GDR0R0S1`, rhombohedral.c 1416. -/
def D3GDR0R0S1 (t xti4A xti4B : ℝ) : ℝ :=
  (-(1 / 8)) * R * t * ((-1) / xti4A ^ 2 + 1 / xti4B ^ 2)

/-- `D3GDR0R0S2`, rhombohedral.c 1417. -/
def D3GDR0R0S2 (t xti4A xti4B : ℝ) : ℝ :=
  (-(1 / 8)) * R * t * ((-1) / xti4A ^ 2 + 1 / xti4B ^ 2)

/-- `D3GDR0R0DT`, rhombohedral.c 1418-1419. -/
def D3GDR0R0DT (xfe2A xti4A xfe3A xfe2B xti4B xfe3B : ℝ) : ℝ :=
  R * ((1 / 4) / xfe2A + (1 / 4) / xti4A + 1 / xfe3A + (1 / 4) / xfe2B + (1 / 4) / xti4B + 1 / xfe3B)

/-- `D3GDR0R0DP`, rhombohedral.c 1420. -/
def D3GDR0R0DP : ℝ :=
  0

/-- `D3GDR0R1S0`, rhombohedral.c 1422. -/
def D3GDR0R1S0 (t xti4A xti4B : ℝ) : ℝ :=
  (-(1 / 8)) * R * t * ((-1) / xti4A ^ 2 + 1 / xti4B ^ 2)

/-- `D3GDR0R1S1`, rhombohedral.c 1423. -/
def D3GDR0R1S1 (t xti4A xti4B : ℝ) : ℝ :=
  (-(1 / 8)) * R * t * ((-1) / xti4A ^ 2 + 1 / xti4B ^ 2)

/-- `D3GDR0R1S2`, rhombohedral.c 1424. -/
def D3GDR0R1S2 (t xti4A xti4B : ℝ) : ℝ :=
  (-(1 / 8)) * R * t * ((-1) / xti4A ^ 2 + 1 / xti4B ^ 2)

/-- `D3GDR0R1DT`, rhombohedral.c 1425. -/
def D3GDR0R1DT (xti4A xfe3A xti4B xfe3B : ℝ) : ℝ :=
  R * ((1 / 4) / xti4A + 1 / xfe3A + (1 / 4) / xti4B + 1 / xfe3B)

/-- `D3GDR0R1DP`, rhombohedral.c 1426. -/
def D3GDR0R1DP : ℝ :=
  0

/-- `D3GDR0R2S0`, rhombohedral.c 1428. -/
def D3GDR0R2S0 (t xti4A xti4B : ℝ) : ℝ :=
  (-(1 / 8)) * R * t * ((-1) / xti4A ^ 2 + 1 / xti4B ^ 2)

/-- `D3GDR0R2S1`, rhombohedral.c 1429. -/
def D3GDR0R2S1 (t xti4A xti4B : ℝ) : ℝ :=
  (-(1 / 8)) * R * t * ((-1) / xti4A ^ 2 + 1 / xti4B ^ 2)

/-- `D3GDR0R2S2`, rhombohedral.c 1430. -/
def D3GDR0R2S2 (t xti4A xti4B : ℝ) : ℝ :=
  (-(1 / 8)) * R * t * ((-1) / xti4A ^ 2 + 1 / xti4B ^ 2)

/-- `D3GDR0R2DT`, rhombohedral.c 1431. -/
def D3GDR0R2DT (xti4A xfe3A xti4B xfe3B : ℝ) : ℝ :=
  R * ((1 / 4) / xti4A + 1 / xfe3A + (1 / 4) / xti4B + 1 / xfe3B)

/-- `D3GDR0R2DP`, rhombohedral.c 1432. -/
def D3GDR0R2DP : ℝ :=
  0

/-- `D3GDR0S0S0`, rhombohedral.c 1434-1436. -/
def D3GDR0S0S0 (t xfe2A xti4A xfe2B xti4B : ℝ) : ℝ :=
  (-(1 / 8)) * R * t * (1 / xfe2A ^ 2 + 1 / xti4A ^ 2 + 1 / xfe2B ^ 2 + 1 / xti4B ^ 2) + 4 * (dwilhm + hil)

/-- `D3GDR0S0S1`, rhombohedral.c 1437. -/
def D3GDR0S0S1 (t xti4A xti4B : ℝ) : ℝ :=
  (-(1 / 8)) * R * t * (1 / xti4A ^ 2 + 1 / xti4B ^ 2)

/-- `D3GDR0S0S2`, rhombohedral.c 1438. -/
def D3GDR0S0S2 (t xti4A xti4B : ℝ) : ℝ :=
  (-(1 / 8)) * R * t * (1 / xti4A ^ 2 + 1 / xti4B ^ 2)

/-- `D3GDR0S0DT`, rhombohedral.c 1439. -/
def D3GDR0S0DT (xfe2A xti4A xfe2B xti4B : ℝ) : ℝ :=
  (1 / 4) * R * (1 / xfe2A - 1 / xti4A - 1 / xfe2B + 1 / xti4B)

/-- `D3GDR0S0DP`, rhombohedral.c 1440. -/
def D3GDR0S0DP : ℝ :=
  0

/-- `D3GDR0S1S1`, rhombohedral.c 1442-1443. -/
def D3GDR0S1S1 (t xti4A xti4B : ℝ) : ℝ :=
  (-(1 / 8)) * R * t * (1 / xti4A ^ 2 + 1 / xti4B ^ 2) + 4 * (dwgkhm + hgk) + 4 * (dwgkil - hgk)

/-- `D3GDR0S1S2`, rhombohedral.c 1444. -/
def D3GDR0S1S2 (t xti4A xti4B : ℝ) : ℝ :=
  (-(1 / 8)) * R * t * (1 / xti4A ^ 2 + 1 / xti4B ^ 2)

/-- `D3GDR0S1DT`, rhombohedral.c 1445. -/
def D3GDR0S1DT (xti4A xti4B : ℝ) : ℝ :=
  (1 / 4) * R * ((-1) / xti4A + 1 / xti4B)

/-- `D3GDR0S1DP`, rhombohedral.c 1446. -/
def D3GDR0S1DP : ℝ :=
  0

/-- `D3GDR0S2S2`, rhombohedral.c 1448-1449. -/
def D3GDR0S2S2 (t xti4A xti4B : ℝ) : ℝ :=
  (-(1 / 8)) * R * t * (1 / xti4A ^ 2 + 1 / xti4B ^ 2) + 4 * (dwpyhm + hpy) + 4 * (dwpyil - hpy)

/-- `D3GDR0S2DT`, rhombohedral.c 1450. -/
def D3GDR0S2DT (xti4A xti4B : ℝ) : ℝ :=
  (1 / 4) * R * ((-1) / xti4A + 1 / xti4B)

/-- `D3GDR0S2DP`, rhombohedral.c 1451. -/
def D3GDR0S2DP : ℝ :=
  0

/-- `D3GDR1R1R1`, rhombohedral.c 1453-1455. -/
def D3GDR1R1R1 (t xmg2A xti4A xfe3A xmg2B xti4B xfe3B : ℝ) : ℝ :=
  (-(1 / 8)) * R * t * (1 / xmg2A ^ 2 + 1 / xti4A ^ 2 - 8 / xfe3A ^ 2 + 1 / xmg2B ^ 2 + 1 / xti4B ^ 2 - 8 /
    xfe3B ^ 2)

/-- `D3GDR1R1S0`, rhombohedral.c 1456. -/
def D3GDR1R1S0 (t xti4A xti4B : ℝ) : ℝ :=
  (-(1 / 8)) * R * t * ((-1) / xti4A ^ 2 + 1 / xti4B ^ 2)

/-- `D3GDR1R1S1`, rhombohedral.c 1457-1458. -/
def D3GDR1R1S1 (t xmg2A xti4A xmg2B xti4B : ℝ) : ℝ :=
  (-(1 / 8)) * R * t * (1 / xmg2A ^ 2 - 1 / xti4A ^ 2 - 1 / xmg2B ^ 2 + 1 / xti4B ^ 2)

/-- `D3GDR1R1S2`, rhombohedral.c 1459. -/
def D3GDR1R1S2 (t xti4A xti4B : ℝ) : ℝ :=
  (-(1 / 8)) * R * t * ((-1) / xti4A ^ 2 + 1 / xti4B ^ 2)

/-- `D3GDR1R1DT`, rhombohedral.c 1460-1461. -/
def D3GDR1R1DT (xmg2A xti4A xfe3A xmg2B xti4B xfe3B : ℝ) : ℝ :=
  R * ((1 / 4) / xmg2A + (1 / 4) / xti4A + 1 / xfe3A + (1 / 4) / xmg2B + (1 / 4) / xti4B + 1 / xfe3B)

/-- `D3GDR1R1DP`, rhombohedral.c 1462. -/
def D3GDR1R1DP : ℝ :=
  0

/-- `D3GDR1R2S0`, rhombohedral.c 1464. -/
def D3GDR1R2S0 (t xti4A xti4B : ℝ) : ℝ :=
  (-(1 / 8)) * R * t * ((-1) / xti4A ^ 2 + 1 / xti4B ^ 2)

/-- `D3GDR1R2S1`, rhombohedral.c 1465. -/
def D3GDR1R2S1 (t xti4A xti4B : ℝ) : ℝ :=
  (-(1 / 8)) * R * t * ((-1) / xti4A ^ 2 + 1 / xti4B ^ 2)

/-- `D3GDR1R2S2`, rhombohedral.c 1466. -/
def D3GDR1R2S2 (t xti4A xti4B : ℝ) : ℝ :=
  (-(1 / 8)) * R * t * ((-1) / xti4A ^ 2 + 1 / xti4B ^ 2)

/-- `D3GDR1R2DT`, rhombohedral.c 1467. -/
def D3GDR1R2DT (xti4A xfe3A xti4B xfe3B : ℝ) : ℝ :=
  R * ((1 / 4) / xti4A + 1 / xfe3A + (1 / 4) / xti4B + 1 / xfe3B)

/-- `D3GDR1R2DP`, rhombohedral.c 1468. -/
def D3GDR1R2DP : ℝ :=
  0

/-- `D3GDR1S0S0`, rhombohedral.c 1470-1471. -/
def D3GDR1S0S0 (t xti4A xti4B : ℝ) : ℝ :=
  (-(1 / 8)) * R * t * (1 / xti4A ^ 2 + 1 / xti4B ^ 2) + 4 * (dwilhm + hil) + 4 * (dwilgk - hil)

/-- `D3GDR1S0S1`, rhombohedral.c 1472. -/
def D3GDR1S0S1 (t xti4A xti4B : ℝ) : ℝ :=
  (-(1 / 8)) * R * t * (1 / xti4A ^ 2 + 1 / xti4B ^ 2)

/-- `D3GDR1S0S2`, rhombohedral.c 1473. -/
def D3GDR1S0S2 (t xti4A xti4B : ℝ) : ℝ :=
  (-(1 / 8)) * R * t * (1 / xti4A ^ 2 + 1 / xti4B ^ 2)

/-- `D3GDR1S0DT`, rhombohedral.c 1474. -/
def D3GDR1S0DT (xti4A xti4B : ℝ) : ℝ :=
  (1 / 4) * R * ((-1) / xti4A + 1 / xti4B)

/-- `D3GDR1S0DP`, rhombohedral.c 1475. -/
def D3GDR1S0DP : ℝ :=
  0

/-- `D3GDR1S1S1`, rhombohedral.c 1477-1479. -/
def D3GDR1S1S1 (t xmg2A xti4A xmg2B xti4B : ℝ) : ℝ :=
  (-(1 / 8)) * R * t * (1 / xmg2A ^ 2 + 1 / xti4A ^ 2 + 1 / xmg2B ^ 2 + 1 / xti4B ^ 2) + 4 * (dwgkhm + hgk)

/-- `D3GDR1S1S2`, rhombohedral.c 1480. -/
def D3GDR1S1S2 (t xti4A xti4B : ℝ) : ℝ :=
  (-(1 / 8)) * R * t * (1 / xti4A ^ 2 + 1 / xti4B ^ 2)

/-- `D3GDR1S1DT`, rhombohedral.c 1481. -/
def D3GDR1S1DT (xmg2A xti4A xmg2B xti4B : ℝ) : ℝ :=
  (1 / 4) * R * (1 / xmg2A - 1 / xti4A - 1 / xmg2B + 1 / xti4B)

/-- `D3GDR1S1DP`, rhombohedral.c 1482. -/
def D3GDR1S1DP : ℝ :=
  0

/-- `D3GDR1S2S2`, rhombohedral.c 1484-1485. -/
def D3GDR1S2S2 (t xti4A xti4B : ℝ) : ℝ :=
  (-(1 / 8)) * R * t * (1 / xti4A ^ 2 + 1 / xti4B ^ 2) + 4 * (dwpyhm + hpy) + 4 * (dwpygk - hpy)

/-- `D3GDR1S2DT`, rhombohedral.c 1486. -/
def D3GDR1S2DT (xti4A xti4B : ℝ) : ℝ :=
  (1 / 4) * R * ((-1) / xti4A + 1 / xti4B)

/-- `D3GDR1S2DP`, rhombohedral.c 1487. -/
def D3GDR1S2DP : ℝ :=
  0

/-- `D3GDR2R2R2`, rhombohedral.c 1489-1491. -/
def D3GDR2R2R2 (t xmn2A xti4A xfe3A xmn2B xti4B xfe3B : ℝ) : ℝ :=
  (-(1 / 8)) * R * t * (1 / xmn2A ^ 2 + 1 / xti4A ^ 2 - 8 / xfe3A ^ 2 + 1 / xmn2B ^ 2 + 1 / xti4B ^ 2 - 8 /
    xfe3B ^ 2)

/-- `D3GDR2R2S0`, rhombohedral.c 1492. -/
def D3GDR2R2S0 (t xti4A xti4B : ℝ) : ℝ :=
  (-(1 / 8)) * R * t * ((-1) / xti4A ^ 2 + 1 / xti4B ^ 2)

/-- `D3GDR2R2S1`, rhombohedral.c 1493. -/
def D3GDR2R2S1 (t xti4A xti4B : ℝ) : ℝ :=
  (-(1 / 8)) * R * t * ((-1) / xti4A ^ 2 + 1 / xti4B ^ 2)

/-- `D3GDR2R2S2`, rhombohedral.c 1494-1495. -/
def D3GDR2R2S2 (t xmn2A xti4A xmn2B xti4B : ℝ) : ℝ :=
  (-(1 / 8)) * R * t * (1 / xmn2A ^ 2 - 1 / xti4A ^ 2 - 1 / xmn2B ^ 2 + 1 / xti4B ^ 2)

/-- `D3GDR2R2DT`, rhombohedral.c 1496-1497. -/
def D3GDR2R2DT (xmn2A xti4A xfe3A xmn2B xti4B xfe3B : ℝ) : ℝ :=
  R * ((1 / 4) / xmn2A + (1 / 4) / xti4A + 1 / xfe3A + (1 / 4) / xmn2B + (1 / 4) / xti4B + 1 / xfe3B)

/-- `D3GDR2R2DP`, rhombohedral.c 1498. -/
def D3GDR2R2DP : ℝ :=
  0

/-- `D3GDR2S0S0`, rhombohedral.c 1500-1501. -/
def D3GDR2S0S0 (t xti4A xti4B : ℝ) : ℝ :=
  (-(1 / 8)) * R * t * (1 / xti4A ^ 2 + 1 / xti4B ^ 2) + 4 * (dwilhm + hil) + 4 * (dwilpy - hil)

/-- `D3GDR2S0S1`, rhombohedral.c 1502. -/
def D3GDR2S0S1 (t xti4A xti4B : ℝ) : ℝ :=
  (-(1 / 8)) * R * t * (1 / xti4A ^ 2 + 1 / xti4B ^ 2)

/-- `D3GDR2S0S2`, rhombohedral.c 1503. -/
def D3GDR2S0S2 (t xti4A xti4B : ℝ) : ℝ :=
  (-(1 / 8)) * R * t * (1 / xti4A ^ 2 + 1 / xti4B ^ 2)

/-- `D3GDR2S0DT`, rhombohedral.c 1504. -/
def D3GDR2S0DT (xti4A xti4B : ℝ) : ℝ :=
  (1 / 4) * R * ((-1) / xti4A + 1 / xti4B)

/-- `D3GDR2S0DP`, rhombohedral.c 1505. -/
def D3GDR2S0DP : ℝ :=
  0

/-- `D3GDR2S1S1`, rhombohedral.c 1507-1508. -/
def D3GDR2S1S1 (t xti4A xti4B : ℝ) : ℝ :=
  (-(1 / 8)) * R * t * (1 / xti4A ^ 2 + 1 / xti4B ^ 2) + 4 * (dwgkhm + hgk) + 4 * (dwgkpy - hgk)

/-- `D3GDR2S1S2`, rhombohedral.c 1509. -/
def D3GDR2S1S2 (t xti4A xti4B : ℝ) : ℝ :=
  (-(1 / 8)) * R * t * (1 / xti4A ^ 2 + 1 / xti4B ^ 2)

/-- `D3GDR2S1DT`, rhombohedral.c 1510. -/
def D3GDR2S1DT (xti4A xti4B : ℝ) : ℝ :=
  (1 / 4) * R * ((-1) / xti4A + 1 / xti4B)

/-- `D3GDR2S1DP`, rhombohedral.c 1511. -/
def D3GDR2S1DP : ℝ :=
  0

/-- `D3GDR2S2S2`, rhombohedral.c 1513-1515. -/
def D3GDR2S2S2 (t xmn2A xti4A xmn2B xti4B : ℝ) : ℝ :=
  (-(1 / 8)) * R * t * (1 / xmn2A ^ 2 + 1 / xti4A ^ 2 + 1 / xmn2B ^ 2 + 1 / xti4B ^ 2) + 4 * (dwpyhm + hpy)

/-- `D3GDR2S2DT`, rhombohedral.c 1516. -/
def D3GDR2S2DT (xmn2A xti4A xmn2B xti4B : ℝ) : ℝ :=
  (1 / 4) * R * (1 / xmn2A - 1 / xti4A - 1 / xmn2B + 1 / xti4B)

/-- `D3GDR2S2DP`, rhombohedral.c 1517. -/
def D3GDR2S2DP : ℝ :=
  0

/-- `D3GDS0S0S0`, rhombohedral.c 1519-1520. -/
def D3GDS0S0S0 (t xfe2A xti4A xfe2B xti4B : ℝ) : ℝ :=
  (-(1 / 8)) * R * t * (1 / xfe2A ^ 2 - 1 / xti4A ^ 2 - 1 / xfe2B ^ 2 + 1 / xti4B ^ 2)

/-- `D3GDS0S0S1`, rhombohedral.c 1521. -/
def D3GDS0S0S1 (t xti4A xti4B : ℝ) : ℝ :=
  (-(1 / 8)) * R * t * ((-1) / xti4A ^ 2 + 1 / xti4B ^ 2)

/-- `D3GDS0S0S2`, rhombohedral.c 1522. -/
def D3GDS0S0S2 (t xti4A xti4B : ℝ) : ℝ :=
  (-(1 / 8)) * R * t * ((-1) / xti4A ^ 2 + 1 / xti4B ^ 2)

/-- `D3GDS0S0DT`, rhombohedral.c 1523. -/
def D3GDS0S0DT (xfe2A xti4A xfe2B xti4B : ℝ) : ℝ :=
  (1 / 4) * R * (1 / xfe2A + 1 / xti4A + 1 / xfe2B + 1 / xti4B)

/-- `D3GDS0S0DP`, rhombohedral.c 1524. -/
def D3GDS0S0DP : ℝ :=
  0

/-- `D3GDS0S1S1`, rhombohedral.c 1525. -/
def D3GDS0S1S1 (t xti4A xti4B : ℝ) : ℝ :=
  (-(1 / 8)) * R * t * ((-1) / xti4A ^ 2 + 1 / xti4B ^ 2)

/-- `D3GDS0S1S2`, rhombohedral.c 1526. -/
def D3GDS0S1S2 (t xti4A xti4B : ℝ) : ℝ :=
  (-(1 / 8)) * R * t * ((-1) / xti4A ^ 2 + 1 / xti4B ^ 2)

/-- `D3GDS0S1DT`, rhombohedral.c 1527. -/
def D3GDS0S1DT (xti4A xti4B : ℝ) : ℝ :=
  (1 / 4) * R * (1 / xti4A + 1 / xti4B)

/-- `D3GDS0S1DP`, rhombohedral.c 1528. -/
def D3GDS0S1DP : ℝ :=
  0

/-- `D3GDS0S2S2`, rhombohedral.c 1529. -/
def D3GDS0S2S2 (t xti4A xti4B : ℝ) : ℝ :=
  (-(1 / 8)) * R * t * ((-1) / xti4A ^ 2 + 1 / xti4B ^ 2)

/-- `D3GDS0S2DT`, rhombohedral.c 1530. -/
def D3GDS0S2DT (xti4A xti4B : ℝ) : ℝ :=
  (1 / 4) * R * (1 / xti4A + 1 / xti4B)

/-- `D3GDS0S2DP`, rhombohedral.c 1531. -/
def D3GDS0S2DP : ℝ :=
  0

/-- `D3GDS0DT2`, rhombohedral.c 1532. -/
def D3GDS0DT2 : ℝ :=
  0

/-- `D3GDS0DTDP`, rhombohedral.c 1533. -/
def D3GDS0DTDP : ℝ :=
  0

/-- `D3GDS0DP2`, rhombohedral.c 1534. -/
def D3GDS0DP2 : ℝ :=
  0

/-- `D3GDS1S1S1`, rhombohedral.c 1536-1537. -/
def D3GDS1S1S1 (t xmg2A xti4A xmg2B xti4B : ℝ) : ℝ :=
  (-(1 / 8)) * R * t * (1 / xmg2A ^ 2 - 1 / xti4A ^ 2 - 1 / xmg2B ^ 2 + 1 / xti4B ^ 2)

/-- `D3GDS1S1S2`, rhombohedral.c 1538. -/
def D3GDS1S1S2 (t xti4A xti4B : ℝ) : ℝ :=
  (-(1 / 8)) * R * t * ((-1) / xti4A ^ 2 + 1 / xti4B ^ 2)

/-- `D3GDS1S1DT`, rhombohedral.c 1539. -/
def D3GDS1S1DT (xmg2A xti4A xmg2B xti4B : ℝ) : ℝ :=
  (1 / 4) * R * (1 / xmg2A + 1 / xti4A + 1 / xmg2B + 1 / xti4B)

/-- `D3GDS1S1DP`, rhombohedral.c 1540. -/
def D3GDS1S1DP : ℝ :=
  0

/-- `D3GDS1S2S2`, rhombohedral.c 1541. -/
def D3GDS1S2S2 (t xti4A xti4B : ℝ) : ℝ :=
  (-(1 / 8)) * R * t * ((-1) / xti4A ^ 2 + 1 / xti4B ^ 2)

/-- `D3GDS1S2DT`, rhombohedral.c 1542. -/
def D3GDS1S2DT (xti4A xti4B : ℝ) : ℝ :=
  (1 / 4) * R * (1 / xti4A + 1 / xti4B)

/-- `D3GDS1S2DP`, rhombohedral.c 1543. -/
def D3GDS1S2DP : ℝ :=
  0

/-- `D3GDS1DT2`, rhombohedral.c 1544. -/
def D3GDS1DT2 : ℝ :=
  0

/-- `D3GDS1DTDP`, rhombohedral.c 1545. -/
def D3GDS1DTDP : ℝ :=
  0

/-- `D3GDS1DP2`, rhombohedral.c 1546. -/
def D3GDS1DP2 : ℝ :=
  0

/-- `D3GDS2S2S2`, rhombohedral.c 1548-1549. -/
def D3GDS2S2S2 (t xmn2A xti4A xmn2B xti4B : ℝ) : ℝ :=
  (-(1 / 8)) * R * t * (1 / xmn2A ^ 2 - 1 / xti4A ^ 2 - 1 / xmn2B ^ 2 + 1 / xti4B ^ 2)

/-- `D3GDS2S2DT`, rhombohedral.c 1550. -/
def D3GDS2S2DT (xmn2A xti4A xmn2B xti4B : ℝ) : ℝ :=
  (1 / 4) * R * (1 / xmn2A + 1 / xti4A + 1 / xmn2B + 1 / xti4B)

/-- `D3GDS2S2DP`, rhombohedral.c 1551. -/
def D3GDS2S2DP : ℝ :=
  0

/-- `D3GDS2DT2`, rhombohedral.c 1552. -/
def D3GDS2DT2 : ℝ :=
  0

/-- `D3GDS2DTDP`, rhombohedral.c 1553. -/
def D3GDS2DTDP : ℝ :=
  0

/-- `D3GDS2DP2`, rhombohedral.c 1554. -/
def D3GDS2DP2 : ℝ :=
  0

/-- `D3GDT3`, rhombohedral.c 1556. -/
def D3GDT3 : ℝ :=
  0

/-- `D3GDT2DP`, rhombohedral.c 1557. -/
def D3GDT2DP : ℝ :=
  0

/-- `D3GDTDP2`, rhombohedral.c 1558. -/
def D3GDTDP2 : ℝ :=
  0

/-- `D3GDP3`, rhombohedral.c 1559. -/
def D3GDP3 : ℝ :=
  0

/-- `D3GDR0DT2`, rhombohedral.c 1561. -/
def D3GDR0DT2 : ℝ :=
  0

/-- `D3GDR0DTDP`, rhombohedral.c 1562. -/
def D3GDR0DTDP : ℝ :=
  0

/-- `D3GDR0DP2`, rhombohedral.c 1563. -/
def D3GDR0DP2 : ℝ :=
  0

/-- `D3GDR1DT2`, rhombohedral.c 1564. -/
def D3GDR1DT2 : ℝ :=
  0

/-- `D3GDR1DTDP`, rhombohedral.c 1565. -/
def D3GDR1DTDP : ℝ :=
  0

/-- `D3GDR1DP2`, rhombohedral.c 1566. -/
def D3GDR1DP2 : ℝ :=
  0

/-- `D3GDR2DT2`, rhombohedral.c 1567. -/
def D3GDR2DT2 : ℝ :=
  0

/-- `D3GDR2DTDP`, rhombohedral.c 1568. -/
def D3GDR2DTDP : ℝ :=
  0

/-- `D3GDR2DP2`, rhombohedral.c 1569. -/
def D3GDR2DP2 : ℝ :=
  0

/-- The arrays as the functions of rhombohedral.c fill them (lines 1575-1752), for site fractions `x` and variables `y`. -/
def tables (x : Fin 10 → ℝ) (y : Var 3 3 → ℝ) : Tables 3 3 where
g := G (y (.inl iT)) (y (.inl (.inl 0))) (y (.inl (.inl 1))) (y (.inl (.inl 2))) (y (.inr 0)) (y (.inr 1))
    (y (.inr 2)) (x 0) (x 1) (x 2) (x 3) (x 4) (x 5) (x 6) (x 7) (x 8) (x 9)
s := S (x 0) (x 1) (x 2) (x 3) (x 4) (x 5) (x 6) (x 7) (x 8) (x 9)
dgdr := ![DGDR0 (y (.inl iT)) (y (.inl (.inl 0))) (y (.inl (.inl 1))) (y (.inl (.inl 2))) (y (.inr 0)) (y
    (.inr 1)) (y (.inr 2)) (x 0) (x 3) (x 4) (x 5) (x 8) (x 9), DGDR1 (y (.inl iT)) (y (.inl (.inl 0))) (y (.inl
    (.inl 1))) (y (.inl (.inl 2))) (y (.inr 0)) (y (.inr 1)) (y (.inr 2)) (x 1) (x 3) (x 4) (x 6) (x 8) (x 9),
    DGDR2 (y (.inl iT)) (y (.inl (.inl 0))) (y (.inl (.inl 1))) (y (.inl (.inl 2))) (y (.inr 0)) (y (.inr 1)) (y
    (.inr 2)) (x 2) (x 3) (x 4) (x 7) (x 8) (x 9)]
dgds := ![DGDS0 (y (.inl iT)) (y (.inl (.inl 0))) (y (.inl (.inl 1))) (y (.inl (.inl 2))) (y (.inr 0)) (y
    (.inr 1)) (y (.inr 2)) (x 0) (x 3) (x 5) (x 8), DGDS1 (y (.inl iT)) (y (.inl (.inl 0))) (y (.inl (.inl 1)))
    (y (.inl (.inl 2))) (y (.inr 0)) (y (.inr 1)) (y (.inr 2)) (x 1) (x 3) (x 6) (x 8), DGDS2 (y (.inl iT)) (y
    (.inl (.inl 0))) (y (.inl (.inl 1))) (y (.inl (.inl 2))) (y (.inr 0)) (y (.inr 1)) (y (.inr 2)) (x 2) (x 3)
    (x 7) (x 8)]
dgdt := DGDT (x 0) (x 1) (x 2) (x 3) (x 4) (x 5) (x 6) (x 7) (x 8) (x 9)
dgdp := DGDP
d2gdt2 := D2GDT2
d2gdtdp := D2GDTDP
d2gdp2 := D2GDP2
d3gdt3 := D3GDT3
d3gdt2dp := D3GDT2DP
d3gdtdp2 := D3GDTDP2
d3gdp3 := D3GDP3
d2gdr2 := ![![D2GDR0R0 (y (.inl iT)) (x 0) (x 3) (x 4) (x 5) (x 8) (x 9), D2GDR0R1 (y (.inl iT)) (x 3) (x 4)
    (x 8) (x 9), D2GDR0R2 (y (.inl iT)) (x 3) (x 4) (x 8) (x 9)], ![D2GDR0R1 (y (.inl iT)) (x 3) (x 4) (x 8) (x
    9), D2GDR1R1 (y (.inl iT)) (x 1) (x 3) (x 4) (x 6) (x 8) (x 9), D2GDR1R2 (y (.inl iT)) (x 3) (x 4) (x 8) (x
    9)], ![D2GDR0R2 (y (.inl iT)) (x 3) (x 4) (x 8) (x 9), D2GDR1R2 (y (.inl iT)) (x 3) (x 4) (x 8) (x 9),
    D2GDR2R2 (y (.inl iT)) (x 2) (x 3) (x 4) (x 7) (x 8) (x 9)]]
d2gdrds := ![![D2GDR0S0 (y (.inl iT)) (y (.inr 0)) (x 0) (x 3) (x 5) (x 8), D2GDR0S1 (y (.inl iT)) (y (.inr
    1)) (x 3) (x 8), D2GDR0S2 (y (.inl iT)) (y (.inr 2)) (x 3) (x 8)], ![D2GDR1S0 (y (.inl iT)) (y (.inr 0)) (x
    3) (x 8), D2GDR1S1 (y (.inl iT)) (y (.inr 1)) (x 1) (x 3) (x 6) (x 8), D2GDR1S2 (y (.inl iT)) (y (.inr 2))
    (x 3) (x 8)], ![D2GDR2S0 (y (.inl iT)) (y (.inr 0)) (x 3) (x 8), D2GDR2S1 (y (.inl iT)) (y (.inr 1)) (x 3)
    (x 8), D2GDR2S2 (y (.inl iT)) (y (.inr 2)) (x 2) (x 3) (x 7) (x 8)]]
d2gdrdt := ![D2GDR0DT (x 0) (x 3) (x 4) (x 5) (x 8) (x 9), D2GDR1DT (x 1) (x 3) (x 4) (x 6) (x 8) (x 9),
    D2GDR2DT (x 2) (x 3) (x 4) (x 7) (x 8) (x 9)]
d2gdrdp := ![D2GDR0DP, D2GDR1DP, D2GDR2DP]
d2gds2 := ![![D2GDS0S0 (y (.inl iT)) (y (.inl (.inl 0))) (y (.inl (.inl 1))) (y (.inl (.inl 2))) (x 0) (x 3)
    (x 5) (x 8), D2GDS0S1 (y (.inl iT)) (x 3) (x 8), D2GDS0S2 (y (.inl iT)) (x 3) (x 8)], ![D2GDS0S1 (y (.inl
    iT)) (x 3) (x 8), D2GDS1S1 (y (.inl iT)) (y (.inl (.inl 0))) (y (.inl (.inl 1))) (y (.inl (.inl 2))) (x 1)
    (x 3) (x 6) (x 8), D2GDS1S2 (y (.inl iT)) (x 3) (x 8)], ![D2GDS0S2 (y (.inl iT)) (x 3) (x 8), D2GDS1S2 (y
    (.inl iT)) (x 3) (x 8), D2GDS2S2 (y (.inl iT)) (y (.inl (.inl 0))) (y (.inl (.inl 1))) (y (.inl (.inl 2)))
    (x 2) (x 3) (x 7) (x 8)]]
d2gdsdt := ![D2GDS0DT (x 0) (x 3) (x 5) (x 8), D2GDS1DT (x 1) (x 3) (x 6) (x 8), D2GDS2DT (x 2) (x 3) (x 7)
    (x 8)]
d2gdsdp := ![D2GDS0DP, D2GDS1DP, D2GDS2DP]
d3gdr3 := ![![![D3GDR0R0R0 (y (.inl iT)) (x 0) (x 3) (x 4) (x 5) (x 8) (x 9), D3GDR0R0R1 (y (.inl iT)) (x 3)
    (x 4) (x 8) (x 9), D3GDR0R0R1 (y (.inl iT)) (x 3) (x 4) (x 8) (x 9)], ![D3GDR0R0R1 (y (.inl iT)) (x 3) (x 4)
    (x 8) (x 9), D3GDR0R0R1 (y (.inl iT)) (x 3) (x 4) (x 8) (x 9), D3GDR0R0R1 (y (.inl iT)) (x 3) (x 4) (x 8) (x
    9)], ![D3GDR0R0R1 (y (.inl iT)) (x 3) (x 4) (x 8) (x 9), D3GDR0R0R1 (y (.inl iT)) (x 3) (x 4) (x 8) (x 9),
    D3GDR0R0R1 (y (.inl iT)) (x 3) (x 4) (x 8) (x 9)]], ![![D3GDR0R0R1 (y (.inl iT)) (x 3) (x 4) (x 8) (x 9),
    D3GDR0R0R1 (y (.inl iT)) (x 3) (x 4) (x 8) (x 9), D3GDR0R0R1 (y (.inl iT)) (x 3) (x 4) (x 8) (x 9)],
    ![D3GDR0R0R1 (y (.inl iT)) (x 3) (x 4) (x 8) (x 9), D3GDR1R1R1 (y (.inl iT)) (x 1) (x 3) (x 4) (x 6) (x 8)
    (x 9), D3GDR0R0R1 (y (.inl iT)) (x 3) (x 4) (x 8) (x 9)], ![D3GDR0R0R1 (y (.inl iT)) (x 3) (x 4) (x 8) (x
    9), D3GDR0R0R1 (y (.inl iT)) (x 3) (x 4) (x 8) (x 9), D3GDR0R0R1 (y (.inl iT)) (x 3) (x 4) (x 8) (x 9)]],
    ![![D3GDR0R0R1 (y (.inl iT)) (x 3) (x 4) (x 8) (x 9), D3GDR0R0R1 (y (.inl iT)) (x 3) (x 4) (x 8) (x 9),
    D3GDR0R0R1 (y (.inl iT)) (x 3) (x 4) (x 8) (x 9)], ![D3GDR0R0R1 (y (.inl iT)) (x 3) (x 4) (x 8) (x 9),
    D3GDR0R0R1 (y (.inl iT)) (x 3) (x 4) (x 8) (x 9), D3GDR0R0R1 (y (.inl iT)) (x 3) (x 4) (x 8) (x 9)],
    ![D3GDR0R0R1 (y (.inl iT)) (x 3) (x 4) (x 8) (x 9), D3GDR0R0R1 (y (.inl iT)) (x 3) (x 4) (x 8) (x 9),
    D3GDR2R2R2 (y (.inl iT)) (x 2) (x 3) (x 4) (x 7) (x 8) (x 9)]]]
d3gdr2ds := ![![![D3GDR0R0S0 (y (.inl iT)) (x 0) (x 3) (x 5) (x 8), D3GDR0R0S1 (y (.inl iT)) (x 3) (x 8),
    D3GDR0R0S2 (y (.inl iT)) (x 3) (x 8)], ![D3GDR0R1S0 (y (.inl iT)) (x 3) (x 8), D3GDR0R1S1 (y (.inl iT)) (x
    3) (x 8), D3GDR0R1S2 (y (.inl iT)) (x 3) (x 8)], ![D3GDR0R2S0 (y (.inl iT)) (x 3) (x 8), D3GDR0R2S1 (y (.inl
    iT)) (x 3) (x 8), D3GDR0R2S2 (y (.inl iT)) (x 3) (x 8)]], ![![D3GDR0R1S0 (y (.inl iT)) (x 3) (x 8),
    D3GDR0R1S1 (y (.inl iT)) (x 3) (x 8), D3GDR0R1S2 (y (.inl iT)) (x 3) (x 8)], ![D3GDR1R1S0 (y (.inl iT)) (x
    3) (x 8), D3GDR1R1S1 (y (.inl iT)) (x 1) (x 3) (x 6) (x 8), D3GDR1R1S2 (y (.inl iT)) (x 3) (x 8)],
    ![D3GDR1R2S0 (y (.inl iT)) (x 3) (x 8), D3GDR1R2S1 (y (.inl iT)) (x 3) (x 8), D3GDR1R2S2 (y (.inl iT)) (x 3)
    (x 8)]], ![![D3GDR0R2S0 (y (.inl iT)) (x 3) (x 8), D3GDR0R2S1 (y (.inl iT)) (x 3) (x 8), D3GDR0R2S2 (y (.inl
    iT)) (x 3) (x 8)], ![D3GDR1R2S0 (y (.inl iT)) (x 3) (x 8), D3GDR1R2S1 (y (.inl iT)) (x 3) (x 8), D3GDR1R2S2
    (y (.inl iT)) (x 3) (x 8)], ![D3GDR2R2S0 (y (.inl iT)) (x 3) (x 8), D3GDR2R2S1 (y (.inl iT)) (x 3) (x 8),
    D3GDR2R2S2 (y (.inl iT)) (x 2) (x 3) (x 7) (x 8)]]]
d3gdr2dt := ![![D3GDR0R0DT (x 0) (x 3) (x 4) (x 5) (x 8) (x 9), D3GDR0R1DT (x 3) (x 4) (x 8) (x 9),
    D3GDR0R2DT (x 3) (x 4) (x 8) (x 9)], ![D3GDR0R1DT (x 3) (x 4) (x 8) (x 9), D3GDR1R1DT (x 1) (x 3) (x 4) (x
    6) (x 8) (x 9), D3GDR1R2DT (x 3) (x 4) (x 8) (x 9)], ![D3GDR0R2DT (x 3) (x 4) (x 8) (x 9), D3GDR1R2DT (x 3)
    (x 4) (x 8) (x 9), D3GDR2R2DT (x 2) (x 3) (x 4) (x 7) (x 8) (x 9)]]
d3gdr2dp := ![![D3GDR0R0DP, D3GDR0R1DP, D3GDR0R2DP], ![D3GDR0R1DP, D3GDR1R1DP, D3GDR1R2DP], ![D3GDR0R2DP,
    D3GDR1R2DP, D3GDR2R2DP]]
d3gdrds2 := ![![![D3GDR0S0S0 (y (.inl iT)) (x 0) (x 3) (x 5) (x 8), D3GDR0S0S1 (y (.inl iT)) (x 3) (x 8),
    D3GDR0S0S2 (y (.inl iT)) (x 3) (x 8)], ![D3GDR0S0S1 (y (.inl iT)) (x 3) (x 8), D3GDR0S1S1 (y (.inl iT)) (x
    3) (x 8), D3GDR0S1S2 (y (.inl iT)) (x 3) (x 8)], ![D3GDR0S0S2 (y (.inl iT)) (x 3) (x 8), D3GDR0S1S2 (y (.inl
    iT)) (x 3) (x 8), D3GDR0S2S2 (y (.inl iT)) (x 3) (x 8)]], ![![D3GDR1S0S0 (y (.inl iT)) (x 3) (x 8),
    D3GDR1S0S1 (y (.inl iT)) (x 3) (x 8), D3GDR1S0S2 (y (.inl iT)) (x 3) (x 8)], ![D3GDR1S0S1 (y (.inl iT)) (x
    3) (x 8), D3GDR1S1S1 (y (.inl iT)) (x 1) (x 3) (x 6) (x 8), D3GDR1S1S2 (y (.inl iT)) (x 3) (x 8)],
    ![D3GDR1S0S2 (y (.inl iT)) (x 3) (x 8), D3GDR1S1S2 (y (.inl iT)) (x 3) (x 8), D3GDR1S2S2 (y (.inl iT)) (x 3)
    (x 8)]], ![![D3GDR2S0S0 (y (.inl iT)) (x 3) (x 8), D3GDR2S0S1 (y (.inl iT)) (x 3) (x 8), D3GDR2S0S2 (y (.inl
    iT)) (x 3) (x 8)], ![D3GDR2S0S1 (y (.inl iT)) (x 3) (x 8), D3GDR2S1S1 (y (.inl iT)) (x 3) (x 8), D3GDR2S1S2
    (y (.inl iT)) (x 3) (x 8)], ![D3GDR2S0S2 (y (.inl iT)) (x 3) (x 8), D3GDR2S1S2 (y (.inl iT)) (x 3) (x 8),
    D3GDR2S2S2 (y (.inl iT)) (x 2) (x 3) (x 7) (x 8)]]]
d3gdrdsdt := ![![D3GDR0S0DT (x 0) (x 3) (x 5) (x 8), D3GDR0S1DT (x 3) (x 8), D3GDR0S2DT (x 3) (x 8)],
    ![D3GDR1S0DT (x 3) (x 8), D3GDR1S1DT (x 1) (x 3) (x 6) (x 8), D3GDR1S2DT (x 3) (x 8)], ![D3GDR2S0DT (x 3) (x
    8), D3GDR2S1DT (x 3) (x 8), D3GDR2S2DT (x 2) (x 3) (x 7) (x 8)]]
d3gdrdsdp := ![![D3GDR0S0DP, D3GDR0S1DP, D3GDR0S2DP], ![D3GDR1S0DP, D3GDR1S1DP, D3GDR1S2DP], ![D3GDR2S0DP,
    D3GDR2S1DP, D3GDR2S2DP]]
d3gdrdt2 := ![D3GDR0DT2, D3GDR1DT2, D3GDR2DT2]
d3gdrdtdp := ![D3GDR0DTDP, D3GDR1DTDP, D3GDR2DTDP]
d3gdrdp2 := ![D3GDR0DP2, D3GDR1DP2, D3GDR2DP2]
d3gds3 := ![![![D3GDS0S0S0 (y (.inl iT)) (x 0) (x 3) (x 5) (x 8), D3GDS0S0S1 (y (.inl iT)) (x 3) (x 8),
    D3GDS0S0S2 (y (.inl iT)) (x 3) (x 8)], ![D3GDS0S0S1 (y (.inl iT)) (x 3) (x 8), D3GDS0S1S1 (y (.inl iT)) (x
    3) (x 8), D3GDS0S1S2 (y (.inl iT)) (x 3) (x 8)], ![D3GDS0S0S2 (y (.inl iT)) (x 3) (x 8), D3GDS0S1S2 (y (.inl
    iT)) (x 3) (x 8), D3GDS0S2S2 (y (.inl iT)) (x 3) (x 8)]], ![![D3GDS0S0S1 (y (.inl iT)) (x 3) (x 8),
    D3GDS0S1S1 (y (.inl iT)) (x 3) (x 8), D3GDS0S1S2 (y (.inl iT)) (x 3) (x 8)], ![D3GDS0S1S1 (y (.inl iT)) (x
    3) (x 8), D3GDS1S1S1 (y (.inl iT)) (x 1) (x 3) (x 6) (x 8), D3GDS1S1S2 (y (.inl iT)) (x 3) (x 8)],
    ![D3GDS0S1S2 (y (.inl iT)) (x 3) (x 8), D3GDS1S1S2 (y (.inl iT)) (x 3) (x 8), D3GDS1S2S2 (y (.inl iT)) (x 3)
    (x 8)]], ![![D3GDS0S0S2 (y (.inl iT)) (x 3) (x 8), D3GDS0S1S2 (y (.inl iT)) (x 3) (x 8), D3GDS0S2S2 (y (.inl
    iT)) (x 3) (x 8)], ![D3GDS0S1S2 (y (.inl iT)) (x 3) (x 8), D3GDS1S1S2 (y (.inl iT)) (x 3) (x 8), D3GDS1S2S2
    (y (.inl iT)) (x 3) (x 8)], ![D3GDS0S2S2 (y (.inl iT)) (x 3) (x 8), D3GDS1S2S2 (y (.inl iT)) (x 3) (x 8),
    D3GDS2S2S2 (y (.inl iT)) (x 2) (x 3) (x 7) (x 8)]]]
d3gds2dt := ![![D3GDS0S0DT (x 0) (x 3) (x 5) (x 8), D3GDS0S1DT (x 3) (x 8), D3GDS0S2DT (x 3) (x 8)],
    ![D3GDS0S1DT (x 3) (x 8), D3GDS1S1DT (x 1) (x 3) (x 6) (x 8), D3GDS1S2DT (x 3) (x 8)], ![D3GDS0S2DT (x 3) (x
    8), D3GDS1S2DT (x 3) (x 8), D3GDS2S2DT (x 2) (x 3) (x 7) (x 8)]]
d3gds2dp := ![![D3GDS0S0DP, D3GDS0S1DP, D3GDS0S2DP], ![D3GDS0S1DP, D3GDS1S1DP, D3GDS1S2DP], ![D3GDS0S2DP,
    D3GDS1S2DP, D3GDS2S2DP]]
d3gdsdt2 := ![D3GDS0DT2, D3GDS1DT2, D3GDS2DT2]
d3gdsdtdp := ![D3GDS0DTDP, D3GDS1DTDP, D3GDS2DTDP]
d3gdsdp2 := ![D3GDS0DP2, D3GDS1DP2, D3GDS2DP2]

/-- Site fractions before they are kept inside their bounds, rhombohedral.c 1801-1823. -/
def raw (y : Var 3 3 → ℝ) : Fin 10 → ℝ :=
  ![((y (.inl (.inl 0))) + (y (.inr 0))) / 2, ((y (.inl (.inl 1))) + (y (.inr 1))) / 2, ((y (.inl (.inl 2))) +
    (y (.inr 2))) / 2, ((y (.inl (.inl 0))) - (y (.inr 0)) + (y (.inl (.inl 1))) - (y (.inr 1)) + (y (.inl (.inl
    2))) - (y (.inr 2))) / 2, 1 - (y (.inl (.inl 0))) - (y (.inl (.inl 1))) - (y (.inl (.inl 2))), ((y (.inl
    (.inl 0))) - (y (.inr 0))) / 2, ((y (.inl (.inl 1))) - (y (.inr 1))) / 2, ((y (.inl (.inl 2))) - (y (.inr
    2))) / 2, ((y (.inl (.inl 0))) + (y (.inr 0)) + (y (.inl (.inl 1))) + (y (.inr 1)) + (y (.inl (.inl 2))) +
    (y (.inr 2))) / 2, 1 - (y (.inl (.inl 0))) - (y (.inl (.inl 1))) - (y (.inl (.inl 2)))]

/-- Bounds applied to the site fractions, rhombohedral.c 1801-1823. -/
def site (y : Var 3 3 → ℝ) : Fin 10 → ℝ :=
  ![keepAbove 0 (raw y 0), keepAbove 0 (raw y 1), keepAbove 0 (raw y 2), keepAbove 0 (raw y 3), keepAbove 0
    (raw y 4), keepAbove 0 (raw y 5), keepAbove 0 (raw y 6), keepAbove 0 (raw y 7), keepAbove 0 (raw y 8),
    keepAbove 0 (raw y 9)]

/-- The macros of rhombohedral.c at given composition, conditions and ordering state. -/
def macros (y : Var 3 3 → ℝ) : Tables 3 3 := tables (site y) y

/-- Where no bound on the site fractions is active. -/
def Dom (y : Var 3 3 → ℝ) : Prop :=
  (0 < raw y 0) ∧ (0 < raw y 1) ∧ (0 < raw y 2) ∧ (0 < raw y 3) ∧ (0 < raw y 4) ∧ (0 < raw y 5) ∧ (0 < raw y
    6) ∧ (0 < raw y 7) ∧ (0 < raw y 8) ∧ (0 < raw y 9)

lemma hl (y u : Var 3 3 → ℝ) (i : Var 3 3) : HasDerivAt (fun v : ℝ => y i + v * u i) (u i) 0 := by
  simpa using ((hasDerivAt_id' (0 : ℝ)).mul_const (u i)).const_add (y i)

lemma raw_line0 (y u : Var 3 3 → ℝ) : HasDerivAt (fun v : ℝ => raw (fun i => y i + v * u i) 0)
    ((1 / 2) * u (.inl (.inl 0)) + (1 / 2) * u (.inr 0)) 0 := by
  have hr0 := hl y u ((.inl (.inl 0)))
  have hr1 := hl y u ((.inl (.inl 1)))
  have hr2 := hl y u ((.inl (.inl 2)))
  have hs0 := hl y u ((.inr 0))
  have hs1 := hl y u ((.inr 1))
  have hs2 := hl y u ((.inr 2))
  change HasDerivAt (fun v : ℝ => ((y (.inl (.inl 0)) + v * u (.inl (.inl 0))) + (y (.inr 0) + v * u (.inr 0))) / 2) _ 0
  refine HasDerivAt.congr_deriv (by hdo) ?_
  ring

lemma raw_line1 (y u : Var 3 3 → ℝ) : HasDerivAt (fun v : ℝ => raw (fun i => y i + v * u i) 1)
    ((1 / 2) * u (.inl (.inl 1)) + (1 / 2) * u (.inr 1)) 0 := by
  have hr0 := hl y u ((.inl (.inl 0)))
  have hr1 := hl y u ((.inl (.inl 1)))
  have hr2 := hl y u ((.inl (.inl 2)))
  have hs0 := hl y u ((.inr 0))
  have hs1 := hl y u ((.inr 1))
  have hs2 := hl y u ((.inr 2))
  change HasDerivAt (fun v : ℝ => ((y (.inl (.inl 1)) + v * u (.inl (.inl 1))) + (y (.inr 1) + v * u (.inr 1))) / 2) _ 0
  refine HasDerivAt.congr_deriv (by hdo) ?_
  ring

lemma raw_line2 (y u : Var 3 3 → ℝ) : HasDerivAt (fun v : ℝ => raw (fun i => y i + v * u i) 2)
    ((1 / 2) * u (.inl (.inl 2)) + (1 / 2) * u (.inr 2)) 0 := by
  have hr0 := hl y u ((.inl (.inl 0)))
  have hr1 := hl y u ((.inl (.inl 1)))
  have hr2 := hl y u ((.inl (.inl 2)))
  have hs0 := hl y u ((.inr 0))
  have hs1 := hl y u ((.inr 1))
  have hs2 := hl y u ((.inr 2))
  change HasDerivAt (fun v : ℝ => ((y (.inl (.inl 2)) + v * u (.inl (.inl 2))) + (y (.inr 2) + v * u (.inr 2))) / 2) _ 0
  refine HasDerivAt.congr_deriv (by hdo) ?_
  ring

lemma raw_line3 (y u : Var 3 3 → ℝ) : HasDerivAt (fun v : ℝ => raw (fun i => y i + v * u i) 3)
    ((1 / 2) * u (.inl (.inl 0)) + (1 / 2) * u (.inl (.inl 1)) + (1 / 2) * u (.inl (.inl 2)) + (-(1) / 2) * u (.inr 0) + (-(1) / 2) * u (.inr 1) + (-(1) / 2) * u (.inr 2)) 0 := by
  have hr0 := hl y u ((.inl (.inl 0)))
  have hr1 := hl y u ((.inl (.inl 1)))
  have hr2 := hl y u ((.inl (.inl 2)))
  have hs0 := hl y u ((.inr 0))
  have hs1 := hl y u ((.inr 1))
  have hs2 := hl y u ((.inr 2))
  change HasDerivAt (fun v : ℝ => ((y (.inl (.inl 0)) + v * u (.inl (.inl 0))) - (y (.inr 0) + v * u (.inr 0)) + (y (.inl (.inl 1)) + v * u
    (.inl (.inl 1))) - (y (.inr 1) + v * u (.inr 1)) + (y (.inl (.inl 2)) + v * u (.inl (.inl 2))) - (y (.inr 2)
    + v * u (.inr 2))) / 2) _ 0
  refine HasDerivAt.congr_deriv (by hdo) ?_
  ring

lemma raw_line4 (y u : Var 3 3 → ℝ) : HasDerivAt (fun v : ℝ => raw (fun i => y i + v * u i) 4)
    ((-1) * u (.inl (.inl 0)) + (-1) * u (.inl (.inl 1)) + (-1) * u (.inl (.inl 2))) 0 := by
  have hr0 := hl y u ((.inl (.inl 0)))
  have hr1 := hl y u ((.inl (.inl 1)))
  have hr2 := hl y u ((.inl (.inl 2)))
  have hs0 := hl y u ((.inr 0))
  have hs1 := hl y u ((.inr 1))
  have hs2 := hl y u ((.inr 2))
  change HasDerivAt (fun v : ℝ => 1 - (y (.inl (.inl 0)) + v * u (.inl (.inl 0))) - (y (.inl (.inl 1)) + v * u (.inl (.inl 1))) - (y (.inl
    (.inl 2)) + v * u (.inl (.inl 2)))) _ 0
  refine HasDerivAt.congr_deriv (by hdo) ?_
  ring

lemma raw_line5 (y u : Var 3 3 → ℝ) : HasDerivAt (fun v : ℝ => raw (fun i => y i + v * u i) 5)
    ((1 / 2) * u (.inl (.inl 0)) + (-(1) / 2) * u (.inr 0)) 0 := by
  have hr0 := hl y u ((.inl (.inl 0)))
  have hr1 := hl y u ((.inl (.inl 1)))
  have hr2 := hl y u ((.inl (.inl 2)))
  have hs0 := hl y u ((.inr 0))
  have hs1 := hl y u ((.inr 1))
  have hs2 := hl y u ((.inr 2))
  change HasDerivAt (fun v : ℝ => ((y (.inl (.inl 0)) + v * u (.inl (.inl 0))) - (y (.inr 0) + v * u (.inr 0))) / 2) _ 0
  refine HasDerivAt.congr_deriv (by hdo) ?_
  ring

lemma raw_line6 (y u : Var 3 3 → ℝ) : HasDerivAt (fun v : ℝ => raw (fun i => y i + v * u i) 6)
    ((1 / 2) * u (.inl (.inl 1)) + (-(1) / 2) * u (.inr 1)) 0 := by
  have hr0 := hl y u ((.inl (.inl 0)))
  have hr1 := hl y u ((.inl (.inl 1)))
  have hr2 := hl y u ((.inl (.inl 2)))
  have hs0 := hl y u ((.inr 0))
  have hs1 := hl y u ((.inr 1))
  have hs2 := hl y u ((.inr 2))
  change HasDerivAt (fun v : ℝ => ((y (.inl (.inl 1)) + v * u (.inl (.inl 1))) - (y (.inr 1) + v * u (.inr 1))) / 2) _ 0
  refine HasDerivAt.congr_deriv (by hdo) ?_
  ring

lemma raw_line7 (y u : Var 3 3 → ℝ) : HasDerivAt (fun v : ℝ => raw (fun i => y i + v * u i) 7)
    ((1 / 2) * u (.inl (.inl 2)) + (-(1) / 2) * u (.inr 2)) 0 := by
  have hr0 := hl y u ((.inl (.inl 0)))
  have hr1 := hl y u ((.inl (.inl 1)))
  have hr2 := hl y u ((.inl (.inl 2)))
  have hs0 := hl y u ((.inr 0))
  have hs1 := hl y u ((.inr 1))
  have hs2 := hl y u ((.inr 2))
  change HasDerivAt (fun v : ℝ => ((y (.inl (.inl 2)) + v * u (.inl (.inl 2))) - (y (.inr 2) + v * u (.inr 2))) / 2) _ 0
  refine HasDerivAt.congr_deriv (by hdo) ?_
  ring

lemma raw_line8 (y u : Var 3 3 → ℝ) : HasDerivAt (fun v : ℝ => raw (fun i => y i + v * u i) 8)
    ((1 / 2) * u (.inl (.inl 0)) + (1 / 2) * u (.inl (.inl 1)) + (1 / 2) * u (.inl (.inl 2)) + (1 / 2) * u (.inr 0) + (1 / 2) * u (.inr 1) + (1 / 2) * u (.inr 2)) 0 := by
  have hr0 := hl y u ((.inl (.inl 0)))
  have hr1 := hl y u ((.inl (.inl 1)))
  have hr2 := hl y u ((.inl (.inl 2)))
  have hs0 := hl y u ((.inr 0))
  have hs1 := hl y u ((.inr 1))
  have hs2 := hl y u ((.inr 2))
  change HasDerivAt (fun v : ℝ => ((y (.inl (.inl 0)) + v * u (.inl (.inl 0))) + (y (.inr 0) + v * u (.inr 0)) + (y (.inl (.inl 1)) + v * u
    (.inl (.inl 1))) + (y (.inr 1) + v * u (.inr 1)) + (y (.inl (.inl 2)) + v * u (.inl (.inl 2))) + (y (.inr 2)
    + v * u (.inr 2))) / 2) _ 0
  refine HasDerivAt.congr_deriv (by hdo) ?_
  ring

lemma raw_line9 (y u : Var 3 3 → ℝ) : HasDerivAt (fun v : ℝ => raw (fun i => y i + v * u i) 9)
    ((-1) * u (.inl (.inl 0)) + (-1) * u (.inl (.inl 1)) + (-1) * u (.inl (.inl 2))) 0 := by
  have hr0 := hl y u ((.inl (.inl 0)))
  have hr1 := hl y u ((.inl (.inl 1)))
  have hr2 := hl y u ((.inl (.inl 2)))
  have hs0 := hl y u ((.inr 0))
  have hs1 := hl y u ((.inr 1))
  have hs2 := hl y u ((.inr 2))
  change HasDerivAt (fun v : ℝ => 1 - (y (.inl (.inl 0)) + v * u (.inl (.inl 0))) - (y (.inl (.inl 1)) + v * u (.inl (.inl 1))) - (y (.inl
    (.inl 2)) + v * u (.inl (.inl 2)))) _ 0
  refine HasDerivAt.congr_deriv (by hdo) ?_
  ring

lemma raw_diff (k : Fin 10) (y : Var 3 3 → ℝ) : DifferentiableAt ℝ (fun y => raw y k) y := by
  fin_cases k
  · change DifferentiableAt ℝ (fun y : Var 3 3 → ℝ => ((y (.inl (.inl 0))) + (y (.inr 0))) / 2) y; ddo
  · change DifferentiableAt ℝ (fun y : Var 3 3 → ℝ => ((y (.inl (.inl 1))) + (y (.inr 1))) / 2) y; ddo
  · change DifferentiableAt ℝ (fun y : Var 3 3 → ℝ => ((y (.inl (.inl 2))) + (y (.inr 2))) / 2) y; ddo
  · change DifferentiableAt ℝ (fun y : Var 3 3 → ℝ => ((y (.inl (.inl 0))) - (y (.inr 0)) + (y (.inl (.inl 1))) - (y (.inr 1)) + (y (.inl (.inl 2))) - (y (.inr 2))) / 2) y; ddo
  · change DifferentiableAt ℝ (fun y : Var 3 3 → ℝ => 1 - (y (.inl (.inl 0))) - (y (.inl (.inl 1))) - (y (.inl (.inl 2)))) y; ddo
  · change DifferentiableAt ℝ (fun y : Var 3 3 → ℝ => ((y (.inl (.inl 0))) - (y (.inr 0))) / 2) y; ddo
  · change DifferentiableAt ℝ (fun y : Var 3 3 → ℝ => ((y (.inl (.inl 1))) - (y (.inr 1))) / 2) y; ddo
  · change DifferentiableAt ℝ (fun y : Var 3 3 → ℝ => ((y (.inl (.inl 2))) - (y (.inr 2))) / 2) y; ddo
  · change DifferentiableAt ℝ (fun y : Var 3 3 → ℝ => ((y (.inl (.inl 0))) + (y (.inr 0)) + (y (.inl (.inl 1))) + (y (.inr 1)) + (y (.inl (.inl 2))) + (y (.inr 2))) / 2) y; ddo
  · change DifferentiableAt ℝ (fun y : Var 3 3 → ℝ => 1 - (y (.inl (.inl 0))) - (y (.inl (.inl 1))) - (y (.inl (.inl 2)))) y; ddo

lemma pos (y : Var 3 3 → ℝ) (hy : Dom y) :
    0 < raw y 0 ∧ 0 < raw y 1 ∧ 0 < raw y 2 ∧ 0 < raw y 3 ∧ 0 < raw y 4 ∧ 0 < raw y 5 ∧ 0 < raw y 6 ∧ 0 < raw y
    7 ∧ 0 < raw y 8 ∧ 0 < raw y 9 := by
  have he := dblEps_pos
  obtain ⟨h0, h1, h2, h3, h4, h5, h6, h7, h8, h9⟩ := hy
  refine ⟨?_, ?_, ?_, ?_, ?_, ?_, ?_, ?_, ?_, ?_⟩ <;> first | linarith | assumption

lemma c_G {t p r0 r1 r2 s0 s1 s2 xfe2A xmg2A xmn2A xti4A xfe3A xfe2B xmg2B xmn2B xti4B xfe3B : ℝ → ℝ} {v dt dp dr0 dr1
    dr2 ds0 ds1 ds2 : ℝ} (ht : HasDerivAt t dt v) (hp : HasDerivAt p dp v) (hr0 : HasDerivAt r0 dr0 v) (hr1 :
    HasDerivAt r1 dr1 v) (hr2 : HasDerivAt r2 dr2 v) (hs0 : HasDerivAt s0 ds0 v) (hs1 : HasDerivAt s1 ds1 v)
    (hs2 : HasDerivAt s2 ds2 v) (hxfe2A : HasDerivAt xfe2A ((1 / 2) * dr0 + (1 / 2) * ds0) v) (pxfe2A : 0 <
    xfe2A v) (hxmg2A : HasDerivAt xmg2A ((1 / 2) * dr1 + (1 / 2) * ds1) v) (pxmg2A : 0 < xmg2A v) (hxmn2A :
    HasDerivAt xmn2A ((1 / 2) * dr2 + (1 / 2) * ds2) v) (pxmn2A : 0 < xmn2A v) (hxti4A : HasDerivAt xti4A ((1 /
    2) * dr0 + (1 / 2) * dr1 + (1 / 2) * dr2 + (-(1) / 2) * ds0 + (-(1) / 2) * ds1 + (-(1) / 2) * ds2) v)
    (pxti4A : 0 < xti4A v) (hxfe3A : HasDerivAt xfe3A ((-1) * dr0 + (-1) * dr1 + (-1) * dr2) v) (pxfe3A : 0 <
    xfe3A v) (hxfe2B : HasDerivAt xfe2B ((1 / 2) * dr0 + (-(1) / 2) * ds0) v) (pxfe2B : 0 < xfe2B v) (hxmg2B :
    HasDerivAt xmg2B ((1 / 2) * dr1 + (-(1) / 2) * ds1) v) (pxmg2B : 0 < xmg2B v) (hxmn2B : HasDerivAt xmn2B ((1
    / 2) * dr2 + (-(1) / 2) * ds2) v) (pxmn2B : 0 < xmn2B v) (hxti4B : HasDerivAt xti4B ((1 / 2) * dr0 + (1 / 2)
    * dr1 + (1 / 2) * dr2 + (1 / 2) * ds0 + (1 / 2) * ds1 + (1 / 2) * ds2) v) (pxti4B : 0 < xti4B v) (hxfe3B :
    HasDerivAt xfe3B ((-1) * dr0 + (-1) * dr1 + (-1) * dr2) v) (pxfe3B : 0 < xfe3B v) :
    HasDerivAt (fun v => G (t v) (r0 v) (r1 v) (r2 v) (s0 v) (s1 v) (s2 v) (xfe2A v) (xmg2A v) (xmn2A v) (xti4A v) (xfe3A v) (xfe2B v) (xmg2B v) (xmn2B v) (xti4B v) (xfe3B v))
    (((DGDR0 (t v) (r0 v) (r1 v) (r2 v) (s0 v) (s1 v) (s2 v) (xfe2A v) (xti4A v) (xfe3A v) (xfe2B v) (xti4B v)
    (xfe3B v)) * dr0 + (DGDR1 (t v) (r0 v) (r1 v) (r2 v) (s0 v) (s1 v) (s2 v) (xmg2A v) (xti4A v) (xfe3A v)
    (xmg2B v) (xti4B v) (xfe3B v)) * dr1 + (DGDR2 (t v) (r0 v) (r1 v) (r2 v) (s0 v) (s1 v) (s2 v) (xmn2A v)
    (xti4A v) (xfe3A v) (xmn2B v) (xti4B v) (xfe3B v)) * dr2) + ((DGDT (xfe2A v) (xmg2A v) (xmn2A v) (xti4A v)
    (xfe3A v) (xfe2B v) (xmg2B v) (xmn2B v) (xti4B v) (xfe3B v)) * dt + DGDP * dp) + ((DGDS0 (t v) (r0 v) (r1 v)
    (r2 v) (s0 v) (s1 v) (s2 v) (xfe2A v) (xti4A v) (xfe2B v) (xti4B v)) * ds0 + (DGDS1 (t v) (r0 v) (r1 v) (r2
    v) (s0 v) (s1 v) (s2 v) (xmg2A v) (xti4A v) (xmg2B v) (xti4B v)) * ds1 + (DGDS2 (t v) (r0 v) (r1 v) (r2 v)
    (s0 v) (s1 v) (s2 v) (xmn2A v) (xti4A v) (xmn2B v) (xti4B v)) * ds2)) v := by
  have nxfe2A := pxfe2A.ne'
  have nxmg2A := pxmg2A.ne'
  have nxmn2A := pxmn2A.ne'
  have nxti4A := pxti4A.ne'
  have nxfe3A := pxfe3A.ne'
  have nxfe2B := pxfe2B.ne'
  have nxmg2B := pxmg2B.ne'
  have nxmn2B := pxmn2B.ne'
  have nxti4B := pxti4B.ne'
  have nxfe3B := pxfe3B.ne'
  try simp only [H, S, G, DGDT, DGDP, DGDR0, DGDR1, DGDR2, DGDS0, DGDS1, DGDS2, zero_mul, mul_zero, add_zero, zero_add, sub_zero]
  refine HasDerivAt.congr_deriv (by hdq) ?_
  ring

lemma c_DGDR0 {t p r0 r1 r2 s0 s1 s2 xfe2A xti4A xfe3A xfe2B xti4B xfe3B : ℝ → ℝ} {v dt dp dr0 dr1 dr2 ds0 ds1 ds2 : ℝ}
    (ht : HasDerivAt t dt v) (hp : HasDerivAt p dp v) (hr0 : HasDerivAt r0 dr0 v) (hr1 : HasDerivAt r1 dr1 v)
    (hr2 : HasDerivAt r2 dr2 v) (hs0 : HasDerivAt s0 ds0 v) (hs1 : HasDerivAt s1 ds1 v) (hs2 : HasDerivAt s2 ds2
    v) (hxfe2A : HasDerivAt xfe2A ((1 / 2) * dr0 + (1 / 2) * ds0) v) (pxfe2A : 0 < xfe2A v) (hxti4A : HasDerivAt
    xti4A ((1 / 2) * dr0 + (1 / 2) * dr1 + (1 / 2) * dr2 + (-(1) / 2) * ds0 + (-(1) / 2) * ds1 + (-(1) / 2) *
    ds2) v) (pxti4A : 0 < xti4A v) (hxfe3A : HasDerivAt xfe3A ((-1) * dr0 + (-1) * dr1 + (-1) * dr2) v) (pxfe3A
    : 0 < xfe3A v) (hxfe2B : HasDerivAt xfe2B ((1 / 2) * dr0 + (-(1) / 2) * ds0) v) (pxfe2B : 0 < xfe2B v)
    (hxti4B : HasDerivAt xti4B ((1 / 2) * dr0 + (1 / 2) * dr1 + (1 / 2) * dr2 + (1 / 2) * ds0 + (1 / 2) * ds1 +
    (1 / 2) * ds2) v) (pxti4B : 0 < xti4B v) (hxfe3B : HasDerivAt xfe3B ((-1) * dr0 + (-1) * dr1 + (-1) * dr2)
    v) (pxfe3B : 0 < xfe3B v) :
    HasDerivAt (fun v => DGDR0 (t v) (r0 v) (r1 v) (r2 v) (s0 v) (s1 v) (s2 v) (xfe2A v) (xti4A v) (xfe3A v) (xfe2B v) (xti4B v) (xfe3B v))
    (((D2GDR0R0 (t v) (xfe2A v) (xti4A v) (xfe3A v) (xfe2B v) (xti4B v) (xfe3B v)) * dr0 + (D2GDR0R1 (t v) (xti4A
    v) (xfe3A v) (xti4B v) (xfe3B v)) * dr1 + (D2GDR0R2 (t v) (xti4A v) (xfe3A v) (xti4B v) (xfe3B v)) * dr2) +
    ((D2GDR0DT (xfe2A v) (xti4A v) (xfe3A v) (xfe2B v) (xti4B v) (xfe3B v)) * dt + D2GDR0DP * dp) + ((D2GDR0S0
    (t v) (s0 v) (xfe2A v) (xti4A v) (xfe2B v) (xti4B v)) * ds0 + (D2GDR0S1 (t v) (s1 v) (xti4A v) (xti4B v)) *
    ds1 + (D2GDR0S2 (t v) (s2 v) (xti4A v) (xti4B v)) * ds2)) v := by
  have nxfe2A := pxfe2A.ne'
  have nxti4A := pxti4A.ne'
  have nxfe3A := pxfe3A.ne'
  have nxfe2B := pxfe2B.ne'
  have nxti4B := pxti4B.ne'
  have nxfe3B := pxfe3B.ne'
  try simp only [DGDR0, D2GDR0DT, D2GDR0DP, D2GDR0R0, D2GDR0R1, D2GDR0R2, D2GDR0S0, D2GDR0S1, D2GDR0S2, zero_mul, mul_zero, add_zero, zero_add, sub_zero]
  refine HasDerivAt.congr_deriv (by hdq) ?_
  ring

lemma c_DGDR1 {t p r0 r1 r2 s0 s1 s2 xmg2A xti4A xfe3A xmg2B xti4B xfe3B : ℝ → ℝ} {v dt dp dr0 dr1 dr2 ds0 ds1 ds2 : ℝ}
    (ht : HasDerivAt t dt v) (hp : HasDerivAt p dp v) (hr0 : HasDerivAt r0 dr0 v) (hr1 : HasDerivAt r1 dr1 v)
    (hr2 : HasDerivAt r2 dr2 v) (hs0 : HasDerivAt s0 ds0 v) (hs1 : HasDerivAt s1 ds1 v) (hs2 : HasDerivAt s2 ds2
    v) (hxmg2A : HasDerivAt xmg2A ((1 / 2) * dr1 + (1 / 2) * ds1) v) (pxmg2A : 0 < xmg2A v) (hxti4A : HasDerivAt
    xti4A ((1 / 2) * dr0 + (1 / 2) * dr1 + (1 / 2) * dr2 + (-(1) / 2) * ds0 + (-(1) / 2) * ds1 + (-(1) / 2) *
    ds2) v) (pxti4A : 0 < xti4A v) (hxfe3A : HasDerivAt xfe3A ((-1) * dr0 + (-1) * dr1 + (-1) * dr2) v) (pxfe3A
    : 0 < xfe3A v) (hxmg2B : HasDerivAt xmg2B ((1 / 2) * dr1 + (-(1) / 2) * ds1) v) (pxmg2B : 0 < xmg2B v)
    (hxti4B : HasDerivAt xti4B ((1 / 2) * dr0 + (1 / 2) * dr1 + (1 / 2) * dr2 + (1 / 2) * ds0 + (1 / 2) * ds1 +
    (1 / 2) * ds2) v) (pxti4B : 0 < xti4B v) (hxfe3B : HasDerivAt xfe3B ((-1) * dr0 + (-1) * dr1 + (-1) * dr2)
    v) (pxfe3B : 0 < xfe3B v) :
    HasDerivAt (fun v => DGDR1 (t v) (r0 v) (r1 v) (r2 v) (s0 v) (s1 v) (s2 v) (xmg2A v) (xti4A v) (xfe3A v) (xmg2B v) (xti4B v) (xfe3B v))
    (((D2GDR0R1 (t v) (xti4A v) (xfe3A v) (xti4B v) (xfe3B v)) * dr0 + (D2GDR1R1 (t v) (xmg2A v) (xti4A v) (xfe3A
    v) (xmg2B v) (xti4B v) (xfe3B v)) * dr1 + (D2GDR1R2 (t v) (xti4A v) (xfe3A v) (xti4B v) (xfe3B v)) * dr2) +
    ((D2GDR1DT (xmg2A v) (xti4A v) (xfe3A v) (xmg2B v) (xti4B v) (xfe3B v)) * dt + D2GDR1DP * dp) + ((D2GDR1S0
    (t v) (s0 v) (xti4A v) (xti4B v)) * ds0 + (D2GDR1S1 (t v) (s1 v) (xmg2A v) (xti4A v) (xmg2B v) (xti4B v)) *
    ds1 + (D2GDR1S2 (t v) (s2 v) (xti4A v) (xti4B v)) * ds2)) v := by
  have nxmg2A := pxmg2A.ne'
  have nxti4A := pxti4A.ne'
  have nxfe3A := pxfe3A.ne'
  have nxmg2B := pxmg2B.ne'
  have nxti4B := pxti4B.ne'
  have nxfe3B := pxfe3B.ne'
  try simp only [DGDR1, D2GDR1DT, D2GDR1DP, D2GDR0R1, D2GDR1R1, D2GDR1R2, D2GDR1S0, D2GDR1S1, D2GDR1S2, zero_mul, mul_zero, add_zero, zero_add, sub_zero]
  refine HasDerivAt.congr_deriv (by hdq) ?_
  ring

lemma c_DGDR2 {t p r0 r1 r2 s0 s1 s2 xmn2A xti4A xfe3A xmn2B xti4B xfe3B : ℝ → ℝ} {v dt dp dr0 dr1 dr2 ds0 ds1 ds2 : ℝ}
    (ht : HasDerivAt t dt v) (hp : HasDerivAt p dp v) (hr0 : HasDerivAt r0 dr0 v) (hr1 : HasDerivAt r1 dr1 v)
    (hr2 : HasDerivAt r2 dr2 v) (hs0 : HasDerivAt s0 ds0 v) (hs1 : HasDerivAt s1 ds1 v) (hs2 : HasDerivAt s2 ds2
    v) (hxmn2A : HasDerivAt xmn2A ((1 / 2) * dr2 + (1 / 2) * ds2) v) (pxmn2A : 0 < xmn2A v) (hxti4A : HasDerivAt
    xti4A ((1 / 2) * dr0 + (1 / 2) * dr1 + (1 / 2) * dr2 + (-(1) / 2) * ds0 + (-(1) / 2) * ds1 + (-(1) / 2) *
    ds2) v) (pxti4A : 0 < xti4A v) (hxfe3A : HasDerivAt xfe3A ((-1) * dr0 + (-1) * dr1 + (-1) * dr2) v) (pxfe3A
    : 0 < xfe3A v) (hxmn2B : HasDerivAt xmn2B ((1 / 2) * dr2 + (-(1) / 2) * ds2) v) (pxmn2B : 0 < xmn2B v)
    (hxti4B : HasDerivAt xti4B ((1 / 2) * dr0 + (1 / 2) * dr1 + (1 / 2) * dr2 + (1 / 2) * ds0 + (1 / 2) * ds1 +
    (1 / 2) * ds2) v) (pxti4B : 0 < xti4B v) (hxfe3B : HasDerivAt xfe3B ((-1) * dr0 + (-1) * dr1 + (-1) * dr2)
    v) (pxfe3B : 0 < xfe3B v) :
    HasDerivAt (fun v => DGDR2 (t v) (r0 v) (r1 v) (r2 v) (s0 v) (s1 v) (s2 v) (xmn2A v) (xti4A v) (xfe3A v) (xmn2B v) (xti4B v) (xfe3B v))
    (((D2GDR0R2 (t v) (xti4A v) (xfe3A v) (xti4B v) (xfe3B v)) * dr0 + (D2GDR1R2 (t v) (xti4A v) (xfe3A v) (xti4B
    v) (xfe3B v)) * dr1 + (D2GDR2R2 (t v) (xmn2A v) (xti4A v) (xfe3A v) (xmn2B v) (xti4B v) (xfe3B v)) * dr2) +
    ((D2GDR2DT (xmn2A v) (xti4A v) (xfe3A v) (xmn2B v) (xti4B v) (xfe3B v)) * dt + D2GDR2DP * dp) + ((D2GDR2S0
    (t v) (s0 v) (xti4A v) (xti4B v)) * ds0 + (D2GDR2S1 (t v) (s1 v) (xti4A v) (xti4B v)) * ds1 + (D2GDR2S2 (t
    v) (s2 v) (xmn2A v) (xti4A v) (xmn2B v) (xti4B v)) * ds2)) v := by
  have nxmn2A := pxmn2A.ne'
  have nxti4A := pxti4A.ne'
  have nxfe3A := pxfe3A.ne'
  have nxmn2B := pxmn2B.ne'
  have nxti4B := pxti4B.ne'
  have nxfe3B := pxfe3B.ne'
  try simp only [DGDR2, D2GDR2DT, D2GDR2DP, D2GDR0R2, D2GDR1R2, D2GDR2R2, D2GDR2S0, D2GDR2S1, D2GDR2S2, zero_mul, mul_zero, add_zero, zero_add, sub_zero]
  refine HasDerivAt.congr_deriv (by hdq) ?_
  ring

lemma c_DGDS0 {t p r0 r1 r2 s0 s1 s2 xfe2A xti4A xfe2B xti4B : ℝ → ℝ} {v dt dp dr0 dr1 dr2 ds0 ds1 ds2 : ℝ} (ht :
    HasDerivAt t dt v) (hp : HasDerivAt p dp v) (hr0 : HasDerivAt r0 dr0 v) (hr1 : HasDerivAt r1 dr1 v) (hr2 :
    HasDerivAt r2 dr2 v) (hs0 : HasDerivAt s0 ds0 v) (hs1 : HasDerivAt s1 ds1 v) (hs2 : HasDerivAt s2 ds2 v)
    (hxfe2A : HasDerivAt xfe2A ((1 / 2) * dr0 + (1 / 2) * ds0) v) (pxfe2A : 0 < xfe2A v) (hxti4A : HasDerivAt
    xti4A ((1 / 2) * dr0 + (1 / 2) * dr1 + (1 / 2) * dr2 + (-(1) / 2) * ds0 + (-(1) / 2) * ds1 + (-(1) / 2) *
    ds2) v) (pxti4A : 0 < xti4A v) (hxfe2B : HasDerivAt xfe2B ((1 / 2) * dr0 + (-(1) / 2) * ds0) v) (pxfe2B : 0
    < xfe2B v) (hxti4B : HasDerivAt xti4B ((1 / 2) * dr0 + (1 / 2) * dr1 + (1 / 2) * dr2 + (1 / 2) * ds0 + (1 /
    2) * ds1 + (1 / 2) * ds2) v) (pxti4B : 0 < xti4B v) :
    HasDerivAt (fun v => DGDS0 (t v) (r0 v) (r1 v) (r2 v) (s0 v) (s1 v) (s2 v) (xfe2A v) (xti4A v) (xfe2B v) (xti4B v))
    (((D2GDR0S0 (t v) (s0 v) (xfe2A v) (xti4A v) (xfe2B v) (xti4B v)) * dr0 + (D2GDR1S0 (t v) (s0 v) (xti4A v)
    (xti4B v)) * dr1 + (D2GDR2S0 (t v) (s0 v) (xti4A v) (xti4B v)) * dr2) + ((D2GDS0DT (xfe2A v) (xti4A v)
    (xfe2B v) (xti4B v)) * dt + D2GDS0DP * dp) + ((D2GDS0S0 (t v) (r0 v) (r1 v) (r2 v) (xfe2A v) (xti4A v)
    (xfe2B v) (xti4B v)) * ds0 + (D2GDS0S1 (t v) (xti4A v) (xti4B v)) * ds1 + (D2GDS0S2 (t v) (xti4A v) (xti4B
    v)) * ds2)) v := by
  have nxfe2A := pxfe2A.ne'
  have nxti4A := pxti4A.ne'
  have nxfe2B := pxfe2B.ne'
  have nxti4B := pxti4B.ne'
  try simp only [DGDS0, D2GDS0DT, D2GDS0DP, D2GDR0S0, D2GDR1S0, D2GDR2S0, D2GDS0S0, D2GDS0S1, D2GDS0S2, zero_mul, mul_zero, add_zero, zero_add, sub_zero]
  refine HasDerivAt.congr_deriv (by hdq) ?_
  ring

lemma c_DGDS1 {t p r0 r1 r2 s0 s1 s2 xmg2A xti4A xmg2B xti4B : ℝ → ℝ} {v dt dp dr0 dr1 dr2 ds0 ds1 ds2 : ℝ} (ht :
    HasDerivAt t dt v) (hp : HasDerivAt p dp v) (hr0 : HasDerivAt r0 dr0 v) (hr1 : HasDerivAt r1 dr1 v) (hr2 :
    HasDerivAt r2 dr2 v) (hs0 : HasDerivAt s0 ds0 v) (hs1 : HasDerivAt s1 ds1 v) (hs2 : HasDerivAt s2 ds2 v)
    (hxmg2A : HasDerivAt xmg2A ((1 / 2) * dr1 + (1 / 2) * ds1) v) (pxmg2A : 0 < xmg2A v) (hxti4A : HasDerivAt
    xti4A ((1 / 2) * dr0 + (1 / 2) * dr1 + (1 / 2) * dr2 + (-(1) / 2) * ds0 + (-(1) / 2) * ds1 + (-(1) / 2) *
    ds2) v) (pxti4A : 0 < xti4A v) (hxmg2B : HasDerivAt xmg2B ((1 / 2) * dr1 + (-(1) / 2) * ds1) v) (pxmg2B : 0
    < xmg2B v) (hxti4B : HasDerivAt xti4B ((1 / 2) * dr0 + (1 / 2) * dr1 + (1 / 2) * dr2 + (1 / 2) * ds0 + (1 /
    2) * ds1 + (1 / 2) * ds2) v) (pxti4B : 0 < xti4B v) :
    HasDerivAt (fun v => DGDS1 (t v) (r0 v) (r1 v) (r2 v) (s0 v) (s1 v) (s2 v) (xmg2A v) (xti4A v) (xmg2B v) (xti4B v))
    (((D2GDR0S1 (t v) (s1 v) (xti4A v) (xti4B v)) * dr0 + (D2GDR1S1 (t v) (s1 v) (xmg2A v) (xti4A v) (xmg2B v)
    (xti4B v)) * dr1 + (D2GDR2S1 (t v) (s1 v) (xti4A v) (xti4B v)) * dr2) + ((D2GDS1DT (xmg2A v) (xti4A v)
    (xmg2B v) (xti4B v)) * dt + D2GDS1DP * dp) + ((D2GDS0S1 (t v) (xti4A v) (xti4B v)) * ds0 + (D2GDS1S1 (t v)
    (r0 v) (r1 v) (r2 v) (xmg2A v) (xti4A v) (xmg2B v) (xti4B v)) * ds1 + (D2GDS1S2 (t v) (xti4A v) (xti4B v)) *
    ds2)) v := by
  have nxmg2A := pxmg2A.ne'
  have nxti4A := pxti4A.ne'
  have nxmg2B := pxmg2B.ne'
  have nxti4B := pxti4B.ne'
  try simp only [DGDS1, D2GDS1DT, D2GDS1DP, D2GDR0S1, D2GDR1S1, D2GDR2S1, D2GDS0S1, D2GDS1S1, D2GDS1S2, zero_mul, mul_zero, add_zero, zero_add, sub_zero]
  refine HasDerivAt.congr_deriv (by hdq) ?_
  ring

lemma c_DGDS2 {t p r0 r1 r2 s0 s1 s2 xmn2A xti4A xmn2B xti4B : ℝ → ℝ} {v dt dp dr0 dr1 dr2 ds0 ds1 ds2 : ℝ} (ht :
    HasDerivAt t dt v) (hp : HasDerivAt p dp v) (hr0 : HasDerivAt r0 dr0 v) (hr1 : HasDerivAt r1 dr1 v) (hr2 :
    HasDerivAt r2 dr2 v) (hs0 : HasDerivAt s0 ds0 v) (hs1 : HasDerivAt s1 ds1 v) (hs2 : HasDerivAt s2 ds2 v)
    (hxmn2A : HasDerivAt xmn2A ((1 / 2) * dr2 + (1 / 2) * ds2) v) (pxmn2A : 0 < xmn2A v) (hxti4A : HasDerivAt
    xti4A ((1 / 2) * dr0 + (1 / 2) * dr1 + (1 / 2) * dr2 + (-(1) / 2) * ds0 + (-(1) / 2) * ds1 + (-(1) / 2) *
    ds2) v) (pxti4A : 0 < xti4A v) (hxmn2B : HasDerivAt xmn2B ((1 / 2) * dr2 + (-(1) / 2) * ds2) v) (pxmn2B : 0
    < xmn2B v) (hxti4B : HasDerivAt xti4B ((1 / 2) * dr0 + (1 / 2) * dr1 + (1 / 2) * dr2 + (1 / 2) * ds0 + (1 /
    2) * ds1 + (1 / 2) * ds2) v) (pxti4B : 0 < xti4B v) :
    HasDerivAt (fun v => DGDS2 (t v) (r0 v) (r1 v) (r2 v) (s0 v) (s1 v) (s2 v) (xmn2A v) (xti4A v) (xmn2B v) (xti4B v))
    (((D2GDR0S2 (t v) (s2 v) (xti4A v) (xti4B v)) * dr0 + (D2GDR1S2 (t v) (s2 v) (xti4A v) (xti4B v)) * dr1 +
    (D2GDR2S2 (t v) (s2 v) (xmn2A v) (xti4A v) (xmn2B v) (xti4B v)) * dr2) + ((D2GDS2DT (xmn2A v) (xti4A v)
    (xmn2B v) (xti4B v)) * dt + D2GDS2DP * dp) + ((D2GDS0S2 (t v) (xti4A v) (xti4B v)) * ds0 + (D2GDS1S2 (t v)
    (xti4A v) (xti4B v)) * ds1 + (D2GDS2S2 (t v) (r0 v) (r1 v) (r2 v) (xmn2A v) (xti4A v) (xmn2B v) (xti4B v)) *
    ds2)) v := by
  have nxmn2A := pxmn2A.ne'
  have nxti4A := pxti4A.ne'
  have nxmn2B := pxmn2B.ne'
  have nxti4B := pxti4B.ne'
  try simp only [DGDS2, D2GDS2DT, D2GDS2DP, D2GDR0S2, D2GDR1S2, D2GDR2S2, D2GDS0S2, D2GDS1S2, D2GDS2S2, zero_mul, mul_zero, add_zero, zero_add, sub_zero]
  refine HasDerivAt.congr_deriv (by hdq) ?_
  ring

lemma c_DGDT {t p r0 r1 r2 s0 s1 s2 xfe2A xmg2A xmn2A xti4A xfe3A xfe2B xmg2B xmn2B xti4B xfe3B : ℝ → ℝ} {v dt dp dr0 dr1
    dr2 ds0 ds1 ds2 : ℝ} (ht : HasDerivAt t dt v) (hp : HasDerivAt p dp v) (hr0 : HasDerivAt r0 dr0 v) (hr1 :
    HasDerivAt r1 dr1 v) (hr2 : HasDerivAt r2 dr2 v) (hs0 : HasDerivAt s0 ds0 v) (hs1 : HasDerivAt s1 ds1 v)
    (hs2 : HasDerivAt s2 ds2 v) (hxfe2A : HasDerivAt xfe2A ((1 / 2) * dr0 + (1 / 2) * ds0) v) (pxfe2A : 0 <
    xfe2A v) (hxmg2A : HasDerivAt xmg2A ((1 / 2) * dr1 + (1 / 2) * ds1) v) (pxmg2A : 0 < xmg2A v) (hxmn2A :
    HasDerivAt xmn2A ((1 / 2) * dr2 + (1 / 2) * ds2) v) (pxmn2A : 0 < xmn2A v) (hxti4A : HasDerivAt xti4A ((1 /
    2) * dr0 + (1 / 2) * dr1 + (1 / 2) * dr2 + (-(1) / 2) * ds0 + (-(1) / 2) * ds1 + (-(1) / 2) * ds2) v)
    (pxti4A : 0 < xti4A v) (hxfe3A : HasDerivAt xfe3A ((-1) * dr0 + (-1) * dr1 + (-1) * dr2) v) (pxfe3A : 0 <
    xfe3A v) (hxfe2B : HasDerivAt xfe2B ((1 / 2) * dr0 + (-(1) / 2) * ds0) v) (pxfe2B : 0 < xfe2B v) (hxmg2B :
    HasDerivAt xmg2B ((1 / 2) * dr1 + (-(1) / 2) * ds1) v) (pxmg2B : 0 < xmg2B v) (hxmn2B : HasDerivAt xmn2B ((1
    / 2) * dr2 + (-(1) / 2) * ds2) v) (pxmn2B : 0 < xmn2B v) (hxti4B : HasDerivAt xti4B ((1 / 2) * dr0 + (1 / 2)
    * dr1 + (1 / 2) * dr2 + (1 / 2) * ds0 + (1 / 2) * ds1 + (1 / 2) * ds2) v) (pxti4B : 0 < xti4B v) (hxfe3B :
    HasDerivAt xfe3B ((-1) * dr0 + (-1) * dr1 + (-1) * dr2) v) (pxfe3B : 0 < xfe3B v) :
    HasDerivAt (fun v => DGDT (xfe2A v) (xmg2A v) (xmn2A v) (xti4A v) (xfe3A v) (xfe2B v) (xmg2B v) (xmn2B v) (xti4B v) (xfe3B v))
    (((D2GDR0DT (xfe2A v) (xti4A v) (xfe3A v) (xfe2B v) (xti4B v) (xfe3B v)) * dr0 + (D2GDR1DT (xmg2A v) (xti4A
    v) (xfe3A v) (xmg2B v) (xti4B v) (xfe3B v)) * dr1 + (D2GDR2DT (xmn2A v) (xti4A v) (xfe3A v) (xmn2B v) (xti4B
    v) (xfe3B v)) * dr2) + (D2GDT2 * dt + D2GDTDP * dp) + ((D2GDS0DT (xfe2A v) (xti4A v) (xfe2B v) (xti4B v)) *
    ds0 + (D2GDS1DT (xmg2A v) (xti4A v) (xmg2B v) (xti4B v)) * ds1 + (D2GDS2DT (xmn2A v) (xti4A v) (xmn2B v)
    (xti4B v)) * ds2)) v := by
  have nxfe2A := pxfe2A.ne'
  have nxmg2A := pxmg2A.ne'
  have nxmn2A := pxmn2A.ne'
  have nxti4A := pxti4A.ne'
  have nxfe3A := pxfe3A.ne'
  have nxfe2B := pxfe2B.ne'
  have nxmg2B := pxmg2B.ne'
  have nxmn2B := pxmn2B.ne'
  have nxti4B := pxti4B.ne'
  have nxfe3B := pxfe3B.ne'
  try simp only [S, DGDT, D2GDT2, D2GDTDP, D2GDR0DT, D2GDR1DT, D2GDR2DT, D2GDS0DT, D2GDS1DT, D2GDS2DT, zero_mul, mul_zero, add_zero, zero_add, sub_zero]
  refine HasDerivAt.congr_deriv (by hdq) ?_
  ring

lemma c_DGDP {t p r0 r1 r2 s0 s1 s2 : ℝ → ℝ} {v dt dp dr0 dr1 dr2 ds0 ds1 ds2 : ℝ} (ht : HasDerivAt t dt v) (hp :
    HasDerivAt p dp v) (hr0 : HasDerivAt r0 dr0 v) (hr1 : HasDerivAt r1 dr1 v) (hr2 : HasDerivAt r2 dr2 v) (hs0
    : HasDerivAt s0 ds0 v) (hs1 : HasDerivAt s1 ds1 v) (hs2 : HasDerivAt s2 ds2 v) :
    HasDerivAt (fun v => DGDP)
    ((D2GDR0DP * dr0 + D2GDR1DP * dr1 + D2GDR2DP * dr2) + (D2GDTDP * dt + D2GDP2 * dp) + (D2GDS0DP * ds0 +
    D2GDS1DP * ds1 + D2GDS2DP * ds2)) v := by
  try simp only [DGDP, D2GDTDP, D2GDP2, D2GDR0DP, D2GDR1DP, D2GDR2DP, D2GDS0DP, D2GDS1DP, D2GDS2DP, zero_mul, mul_zero, add_zero, zero_add, sub_zero]
  refine HasDerivAt.congr_deriv (by hdq) ?_
  ring

lemma c_D2GDR0R0 {t p r0 r1 r2 s0 s1 s2 xfe2A xti4A xfe3A xfe2B xti4B xfe3B : ℝ → ℝ} {v dt dp dr0 dr1 dr2 ds0 ds1 ds2 : ℝ}
    (ht : HasDerivAt t dt v) (hp : HasDerivAt p dp v) (hr0 : HasDerivAt r0 dr0 v) (hr1 : HasDerivAt r1 dr1 v)
    (hr2 : HasDerivAt r2 dr2 v) (hs0 : HasDerivAt s0 ds0 v) (hs1 : HasDerivAt s1 ds1 v) (hs2 : HasDerivAt s2 ds2
    v) (hxfe2A : HasDerivAt xfe2A ((1 / 2) * dr0 + (1 / 2) * ds0) v) (pxfe2A : 0 < xfe2A v) (hxti4A : HasDerivAt
    xti4A ((1 / 2) * dr0 + (1 / 2) * dr1 + (1 / 2) * dr2 + (-(1) / 2) * ds0 + (-(1) / 2) * ds1 + (-(1) / 2) *
    ds2) v) (pxti4A : 0 < xti4A v) (hxfe3A : HasDerivAt xfe3A ((-1) * dr0 + (-1) * dr1 + (-1) * dr2) v) (pxfe3A
    : 0 < xfe3A v) (hxfe2B : HasDerivAt xfe2B ((1 / 2) * dr0 + (-(1) / 2) * ds0) v) (pxfe2B : 0 < xfe2B v)
    (hxti4B : HasDerivAt xti4B ((1 / 2) * dr0 + (1 / 2) * dr1 + (1 / 2) * dr2 + (1 / 2) * ds0 + (1 / 2) * ds1 +
    (1 / 2) * ds2) v) (pxti4B : 0 < xti4B v) (hxfe3B : HasDerivAt xfe3B ((-1) * dr0 + (-1) * dr1 + (-1) * dr2)
    v) (pxfe3B : 0 < xfe3B v) :
    HasDerivAt (fun v => D2GDR0R0 (t v) (xfe2A v) (xti4A v) (xfe3A v) (xfe2B v) (xti4B v) (xfe3B v))
    (((D3GDR0R0R0 (t v) (xfe2A v) (xti4A v) (xfe3A v) (xfe2B v) (xti4B v) (xfe3B v)) * dr0 + (D3GDR0R0R1 (t v)
    (xti4A v) (xfe3A v) (xti4B v) (xfe3B v)) * dr1 + (D3GDR0R0R1 (t v) (xti4A v) (xfe3A v) (xti4B v) (xfe3B v))
    * dr2) + ((D3GDR0R0DT (xfe2A v) (xti4A v) (xfe3A v) (xfe2B v) (xti4B v) (xfe3B v)) * dt + D3GDR0R0DP * dp) +
    ((D3GDR0R0S0 (t v) (xfe2A v) (xti4A v) (xfe2B v) (xti4B v)) * ds0 + (D3GDR0R0S1 (t v) (xti4A v) (xti4B v)) *
    ds1 + (D3GDR0R0S2 (t v) (xti4A v) (xti4B v)) * ds2)) v := by
  have nxfe2A := pxfe2A.ne'
  have nxti4A := pxti4A.ne'
  have nxfe3A := pxfe3A.ne'
  have nxfe2B := pxfe2B.ne'
  have nxti4B := pxti4B.ne'
  have nxfe3B := pxfe3B.ne'
  try simp only [D2GDR0R0, D3GDR0R0DT, D3GDR0R0DP, D3GDR0R0R0, D3GDR0R0R1, D3GDR0R0S0, D3GDR0R0S1, D3GDR0R0S2, zero_mul, mul_zero, add_zero, zero_add, sub_zero]
  refine HasDerivAt.congr_deriv (by hdq) ?_
  ring

lemma c_D2GDR0R1 {t p r0 r1 r2 s0 s1 s2 xti4A xfe3A xti4B xfe3B : ℝ → ℝ} {v dt dp dr0 dr1 dr2 ds0 ds1 ds2 : ℝ} (ht :
    HasDerivAt t dt v) (hp : HasDerivAt p dp v) (hr0 : HasDerivAt r0 dr0 v) (hr1 : HasDerivAt r1 dr1 v) (hr2 :
    HasDerivAt r2 dr2 v) (hs0 : HasDerivAt s0 ds0 v) (hs1 : HasDerivAt s1 ds1 v) (hs2 : HasDerivAt s2 ds2 v)
    (hxti4A : HasDerivAt xti4A ((1 / 2) * dr0 + (1 / 2) * dr1 + (1 / 2) * dr2 + (-(1) / 2) * ds0 + (-(1) / 2) *
    ds1 + (-(1) / 2) * ds2) v) (pxti4A : 0 < xti4A v) (hxfe3A : HasDerivAt xfe3A ((-1) * dr0 + (-1) * dr1 + (-1)
    * dr2) v) (pxfe3A : 0 < xfe3A v) (hxti4B : HasDerivAt xti4B ((1 / 2) * dr0 + (1 / 2) * dr1 + (1 / 2) * dr2 +
    (1 / 2) * ds0 + (1 / 2) * ds1 + (1 / 2) * ds2) v) (pxti4B : 0 < xti4B v) (hxfe3B : HasDerivAt xfe3B ((-1) *
    dr0 + (-1) * dr1 + (-1) * dr2) v) (pxfe3B : 0 < xfe3B v) :
    HasDerivAt (fun v => D2GDR0R1 (t v) (xti4A v) (xfe3A v) (xti4B v) (xfe3B v))
    (((D3GDR0R0R1 (t v) (xti4A v) (xfe3A v) (xti4B v) (xfe3B v)) * dr0 + (D3GDR0R0R1 (t v) (xti4A v) (xfe3A v)
    (xti4B v) (xfe3B v)) * dr1 + (D3GDR0R0R1 (t v) (xti4A v) (xfe3A v) (xti4B v) (xfe3B v)) * dr2) +
    ((D3GDR0R1DT (xti4A v) (xfe3A v) (xti4B v) (xfe3B v)) * dt + D3GDR0R1DP * dp) + ((D3GDR0R1S0 (t v) (xti4A v)
    (xti4B v)) * ds0 + (D3GDR0R1S1 (t v) (xti4A v) (xti4B v)) * ds1 + (D3GDR0R1S2 (t v) (xti4A v) (xti4B v)) *
    ds2)) v := by
  have nxti4A := pxti4A.ne'
  have nxfe3A := pxfe3A.ne'
  have nxti4B := pxti4B.ne'
  have nxfe3B := pxfe3B.ne'
  try simp only [D2GDR0R1, D3GDR0R1DT, D3GDR0R1DP, D3GDR0R0R1, D3GDR0R1S0, D3GDR0R1S1, D3GDR0R1S2, zero_mul, mul_zero, add_zero, zero_add, sub_zero]
  refine HasDerivAt.congr_deriv (by hdq) ?_
  ring

lemma c_D2GDR0R2 {t p r0 r1 r2 s0 s1 s2 xti4A xfe3A xti4B xfe3B : ℝ → ℝ} {v dt dp dr0 dr1 dr2 ds0 ds1 ds2 : ℝ} (ht :
    HasDerivAt t dt v) (hp : HasDerivAt p dp v) (hr0 : HasDerivAt r0 dr0 v) (hr1 : HasDerivAt r1 dr1 v) (hr2 :
    HasDerivAt r2 dr2 v) (hs0 : HasDerivAt s0 ds0 v) (hs1 : HasDerivAt s1 ds1 v) (hs2 : HasDerivAt s2 ds2 v)
    (hxti4A : HasDerivAt xti4A ((1 / 2) * dr0 + (1 / 2) * dr1 + (1 / 2) * dr2 + (-(1) / 2) * ds0 + (-(1) / 2) *
    ds1 + (-(1) / 2) * ds2) v) (pxti4A : 0 < xti4A v) (hxfe3A : HasDerivAt xfe3A ((-1) * dr0 + (-1) * dr1 + (-1)
    * dr2) v) (pxfe3A : 0 < xfe3A v) (hxti4B : HasDerivAt xti4B ((1 / 2) * dr0 + (1 / 2) * dr1 + (1 / 2) * dr2 +
    (1 / 2) * ds0 + (1 / 2) * ds1 + (1 / 2) * ds2) v) (pxti4B : 0 < xti4B v) (hxfe3B : HasDerivAt xfe3B ((-1) *
    dr0 + (-1) * dr1 + (-1) * dr2) v) (pxfe3B : 0 < xfe3B v) :
    HasDerivAt (fun v => D2GDR0R2 (t v) (xti4A v) (xfe3A v) (xti4B v) (xfe3B v))
    (((D3GDR0R0R1 (t v) (xti4A v) (xfe3A v) (xti4B v) (xfe3B v)) * dr0 + (D3GDR0R0R1 (t v) (xti4A v) (xfe3A v)
    (xti4B v) (xfe3B v)) * dr1 + (D3GDR0R0R1 (t v) (xti4A v) (xfe3A v) (xti4B v) (xfe3B v)) * dr2) +
    ((D3GDR0R2DT (xti4A v) (xfe3A v) (xti4B v) (xfe3B v)) * dt + D3GDR0R2DP * dp) + ((D3GDR0R2S0 (t v) (xti4A v)
    (xti4B v)) * ds0 + (D3GDR0R2S1 (t v) (xti4A v) (xti4B v)) * ds1 + (D3GDR0R2S2 (t v) (xti4A v) (xti4B v)) *
    ds2)) v := by
  have nxti4A := pxti4A.ne'
  have nxfe3A := pxfe3A.ne'
  have nxti4B := pxti4B.ne'
  have nxfe3B := pxfe3B.ne'
  try simp only [D2GDR0R2, D3GDR0R2DT, D3GDR0R2DP, D3GDR0R0R1, D3GDR0R2S0, D3GDR0R2S1, D3GDR0R2S2, zero_mul, mul_zero, add_zero, zero_add, sub_zero]
  refine HasDerivAt.congr_deriv (by hdq) ?_
  ring

lemma c_D2GDR0S0 {t p r0 r1 r2 s0 s1 s2 xfe2A xti4A xfe2B xti4B : ℝ → ℝ} {v dt dp dr0 dr1 dr2 ds0 ds1 ds2 : ℝ} (ht :
    HasDerivAt t dt v) (hp : HasDerivAt p dp v) (hr0 : HasDerivAt r0 dr0 v) (hr1 : HasDerivAt r1 dr1 v) (hr2 :
    HasDerivAt r2 dr2 v) (hs0 : HasDerivAt s0 ds0 v) (hs1 : HasDerivAt s1 ds1 v) (hs2 : HasDerivAt s2 ds2 v)
    (hxfe2A : HasDerivAt xfe2A ((1 / 2) * dr0 + (1 / 2) * ds0) v) (pxfe2A : 0 < xfe2A v) (hxti4A : HasDerivAt
    xti4A ((1 / 2) * dr0 + (1 / 2) * dr1 + (1 / 2) * dr2 + (-(1) / 2) * ds0 + (-(1) / 2) * ds1 + (-(1) / 2) *
    ds2) v) (pxti4A : 0 < xti4A v) (hxfe2B : HasDerivAt xfe2B ((1 / 2) * dr0 + (-(1) / 2) * ds0) v) (pxfe2B : 0
    < xfe2B v) (hxti4B : HasDerivAt xti4B ((1 / 2) * dr0 + (1 / 2) * dr1 + (1 / 2) * dr2 + (1 / 2) * ds0 + (1 /
    2) * ds1 + (1 / 2) * ds2) v) (pxti4B : 0 < xti4B v) :
    HasDerivAt (fun v => D2GDR0S0 (t v) (s0 v) (xfe2A v) (xti4A v) (xfe2B v) (xti4B v))
    (((D3GDR0R0S0 (t v) (xfe2A v) (xti4A v) (xfe2B v) (xti4B v)) * dr0 + (D3GDR0R1S0 (t v) (xti4A v) (xti4B v)) *
    dr1 + (D3GDR0R2S0 (t v) (xti4A v) (xti4B v)) * dr2) + ((D3GDR0S0DT (xfe2A v) (xti4A v) (xfe2B v) (xti4B v))
    * dt + D3GDR0S0DP * dp) + ((D3GDR0S0S0 (t v) (xfe2A v) (xti4A v) (xfe2B v) (xti4B v)) * ds0 + (D3GDR0S0S1 (t
    v) (xti4A v) (xti4B v)) * ds1 + (D3GDR0S0S2 (t v) (xti4A v) (xti4B v)) * ds2)) v := by
  have nxfe2A := pxfe2A.ne'
  have nxti4A := pxti4A.ne'
  have nxfe2B := pxfe2B.ne'
  have nxti4B := pxti4B.ne'
  try simp only [D2GDR0S0, D3GDR0S0DT, D3GDR0S0DP, D3GDR0R0S0, D3GDR0R1S0, D3GDR0R2S0, D3GDR0S0S0, D3GDR0S0S1, D3GDR0S0S2, zero_mul, mul_zero, add_zero, zero_add, sub_zero]
  refine HasDerivAt.congr_deriv (by hdq) ?_
  ring

lemma c_D2GDR0S1 {t p r0 r1 r2 s0 s1 s2 xti4A xti4B : ℝ → ℝ} {v dt dp dr0 dr1 dr2 ds0 ds1 ds2 : ℝ} (ht : HasDerivAt t dt v)
    (hp : HasDerivAt p dp v) (hr0 : HasDerivAt r0 dr0 v) (hr1 : HasDerivAt r1 dr1 v) (hr2 : HasDerivAt r2 dr2 v)
    (hs0 : HasDerivAt s0 ds0 v) (hs1 : HasDerivAt s1 ds1 v) (hs2 : HasDerivAt s2 ds2 v) (hxti4A : HasDerivAt
    xti4A ((1 / 2) * dr0 + (1 / 2) * dr1 + (1 / 2) * dr2 + (-(1) / 2) * ds0 + (-(1) / 2) * ds1 + (-(1) / 2) *
    ds2) v) (pxti4A : 0 < xti4A v) (hxti4B : HasDerivAt xti4B ((1 / 2) * dr0 + (1 / 2) * dr1 + (1 / 2) * dr2 +
    (1 / 2) * ds0 + (1 / 2) * ds1 + (1 / 2) * ds2) v) (pxti4B : 0 < xti4B v) :
    HasDerivAt (fun v => D2GDR0S1 (t v) (s1 v) (xti4A v) (xti4B v))
    (((D3GDR0R0S1 (t v) (xti4A v) (xti4B v)) * dr0 + (D3GDR0R1S1 (t v) (xti4A v) (xti4B v)) * dr1 + (D3GDR0R2S1
    (t v) (xti4A v) (xti4B v)) * dr2) + ((D3GDR0S1DT (xti4A v) (xti4B v)) * dt + D3GDR0S1DP * dp) + ((D3GDR0S0S1
    (t v) (xti4A v) (xti4B v)) * ds0 + (D3GDR0S1S1 (t v) (xti4A v) (xti4B v)) * ds1 + (D3GDR0S1S2 (t v) (xti4A
    v) (xti4B v)) * ds2)) v := by
  have nxti4A := pxti4A.ne'
  have nxti4B := pxti4B.ne'
  try simp only [D2GDR0S1, D3GDR0S1DT, D3GDR0S1DP, D3GDR0R0S1, D3GDR0R1S1, D3GDR0R2S1, D3GDR0S0S1, D3GDR0S1S1, D3GDR0S1S2, zero_mul, mul_zero, add_zero, zero_add, sub_zero]
  refine HasDerivAt.congr_deriv (by hdq) ?_
  ring

lemma c_D2GDR0S2 {t p r0 r1 r2 s0 s1 s2 xti4A xti4B : ℝ → ℝ} {v dt dp dr0 dr1 dr2 ds0 ds1 ds2 : ℝ} (ht : HasDerivAt t dt v)
    (hp : HasDerivAt p dp v) (hr0 : HasDerivAt r0 dr0 v) (hr1 : HasDerivAt r1 dr1 v) (hr2 : HasDerivAt r2 dr2 v)
    (hs0 : HasDerivAt s0 ds0 v) (hs1 : HasDerivAt s1 ds1 v) (hs2 : HasDerivAt s2 ds2 v) (hxti4A : HasDerivAt
    xti4A ((1 / 2) * dr0 + (1 / 2) * dr1 + (1 / 2) * dr2 + (-(1) / 2) * ds0 + (-(1) / 2) * ds1 + (-(1) / 2) *
    ds2) v) (pxti4A : 0 < xti4A v) (hxti4B : HasDerivAt xti4B ((1 / 2) * dr0 + (1 / 2) * dr1 + (1 / 2) * dr2 +
    (1 / 2) * ds0 + (1 / 2) * ds1 + (1 / 2) * ds2) v) (pxti4B : 0 < xti4B v) :
    HasDerivAt (fun v => D2GDR0S2 (t v) (s2 v) (xti4A v) (xti4B v))
    (((D3GDR0R0S2 (t v) (xti4A v) (xti4B v)) * dr0 + (D3GDR0R1S2 (t v) (xti4A v) (xti4B v)) * dr1 + (D3GDR0R2S2
    (t v) (xti4A v) (xti4B v)) * dr2) + ((D3GDR0S2DT (xti4A v) (xti4B v)) * dt + D3GDR0S2DP * dp) + ((D3GDR0S0S2
    (t v) (xti4A v) (xti4B v)) * ds0 + (D3GDR0S1S2 (t v) (xti4A v) (xti4B v)) * ds1 + (D3GDR0S2S2 (t v) (xti4A
    v) (xti4B v)) * ds2)) v := by
  have nxti4A := pxti4A.ne'
  have nxti4B := pxti4B.ne'
  try simp only [D2GDR0S2, D3GDR0S2DT, D3GDR0S2DP, D3GDR0R0S2, D3GDR0R1S2, D3GDR0R2S2, D3GDR0S0S2, D3GDR0S1S2, D3GDR0S2S2, zero_mul, mul_zero, add_zero, zero_add, sub_zero]
  refine HasDerivAt.congr_deriv (by hdq) ?_
  ring

lemma c_D2GDR0DT {t p r0 r1 r2 s0 s1 s2 xfe2A xti4A xfe3A xfe2B xti4B xfe3B : ℝ → ℝ} {v dt dp dr0 dr1 dr2 ds0 ds1 ds2 : ℝ}
    (ht : HasDerivAt t dt v) (hp : HasDerivAt p dp v) (hr0 : HasDerivAt r0 dr0 v) (hr1 : HasDerivAt r1 dr1 v)
    (hr2 : HasDerivAt r2 dr2 v) (hs0 : HasDerivAt s0 ds0 v) (hs1 : HasDerivAt s1 ds1 v) (hs2 : HasDerivAt s2 ds2
    v) (hxfe2A : HasDerivAt xfe2A ((1 / 2) * dr0 + (1 / 2) * ds0) v) (pxfe2A : 0 < xfe2A v) (hxti4A : HasDerivAt
    xti4A ((1 / 2) * dr0 + (1 / 2) * dr1 + (1 / 2) * dr2 + (-(1) / 2) * ds0 + (-(1) / 2) * ds1 + (-(1) / 2) *
    ds2) v) (pxti4A : 0 < xti4A v) (hxfe3A : HasDerivAt xfe3A ((-1) * dr0 + (-1) * dr1 + (-1) * dr2) v) (pxfe3A
    : 0 < xfe3A v) (hxfe2B : HasDerivAt xfe2B ((1 / 2) * dr0 + (-(1) / 2) * ds0) v) (pxfe2B : 0 < xfe2B v)
    (hxti4B : HasDerivAt xti4B ((1 / 2) * dr0 + (1 / 2) * dr1 + (1 / 2) * dr2 + (1 / 2) * ds0 + (1 / 2) * ds1 +
    (1 / 2) * ds2) v) (pxti4B : 0 < xti4B v) (hxfe3B : HasDerivAt xfe3B ((-1) * dr0 + (-1) * dr1 + (-1) * dr2)
    v) (pxfe3B : 0 < xfe3B v) :
    HasDerivAt (fun v => D2GDR0DT (xfe2A v) (xti4A v) (xfe3A v) (xfe2B v) (xti4B v) (xfe3B v))
    (((D3GDR0R0DT (xfe2A v) (xti4A v) (xfe3A v) (xfe2B v) (xti4B v) (xfe3B v)) * dr0 + (D3GDR0R1DT (xti4A v)
    (xfe3A v) (xti4B v) (xfe3B v)) * dr1 + (D3GDR0R2DT (xti4A v) (xfe3A v) (xti4B v) (xfe3B v)) * dr2) +
    (D3GDR0DT2 * dt + D3GDR0DTDP * dp) + ((D3GDR0S0DT (xfe2A v) (xti4A v) (xfe2B v) (xti4B v)) * ds0 +
    (D3GDR0S1DT (xti4A v) (xti4B v)) * ds1 + (D3GDR0S2DT (xti4A v) (xti4B v)) * ds2)) v := by
  have nxfe2A := pxfe2A.ne'
  have nxti4A := pxti4A.ne'
  have nxfe3A := pxfe3A.ne'
  have nxfe2B := pxfe2B.ne'
  have nxti4B := pxti4B.ne'
  have nxfe3B := pxfe3B.ne'
  try simp only [D2GDR0DT, D3GDR0DT2, D3GDR0DTDP, D3GDR0R0DT, D3GDR0R1DT, D3GDR0R2DT, D3GDR0S0DT, D3GDR0S1DT, D3GDR0S2DT, zero_mul, mul_zero, add_zero, zero_add, sub_zero]
  refine HasDerivAt.congr_deriv (by hdq) ?_
  ring

lemma c_D2GDR0DP {t p r0 r1 r2 s0 s1 s2 : ℝ → ℝ} {v dt dp dr0 dr1 dr2 ds0 ds1 ds2 : ℝ} (ht : HasDerivAt t dt v) (hp :
    HasDerivAt p dp v) (hr0 : HasDerivAt r0 dr0 v) (hr1 : HasDerivAt r1 dr1 v) (hr2 : HasDerivAt r2 dr2 v) (hs0
    : HasDerivAt s0 ds0 v) (hs1 : HasDerivAt s1 ds1 v) (hs2 : HasDerivAt s2 ds2 v) :
    HasDerivAt (fun v => D2GDR0DP)
    ((D3GDR0R0DP * dr0 + D3GDR0R1DP * dr1 + D3GDR0R2DP * dr2) + (D3GDR0DTDP * dt + D3GDR0DP2 * dp) + (D3GDR0S0DP
    * ds0 + D3GDR0S1DP * ds1 + D3GDR0S2DP * ds2)) v := by
  try simp only [D2GDR0DP, D3GDR0DTDP, D3GDR0DP2, D3GDR0R0DP, D3GDR0R1DP, D3GDR0R2DP, D3GDR0S0DP, D3GDR0S1DP, D3GDR0S2DP, zero_mul, mul_zero, add_zero, zero_add, sub_zero]
  refine HasDerivAt.congr_deriv (by hdq) ?_
  ring

lemma c_D2GDR1R1 {t p r0 r1 r2 s0 s1 s2 xmg2A xti4A xfe3A xmg2B xti4B xfe3B : ℝ → ℝ} {v dt dp dr0 dr1 dr2 ds0 ds1 ds2 : ℝ}
    (ht : HasDerivAt t dt v) (hp : HasDerivAt p dp v) (hr0 : HasDerivAt r0 dr0 v) (hr1 : HasDerivAt r1 dr1 v)
    (hr2 : HasDerivAt r2 dr2 v) (hs0 : HasDerivAt s0 ds0 v) (hs1 : HasDerivAt s1 ds1 v) (hs2 : HasDerivAt s2 ds2
    v) (hxmg2A : HasDerivAt xmg2A ((1 / 2) * dr1 + (1 / 2) * ds1) v) (pxmg2A : 0 < xmg2A v) (hxti4A : HasDerivAt
    xti4A ((1 / 2) * dr0 + (1 / 2) * dr1 + (1 / 2) * dr2 + (-(1) / 2) * ds0 + (-(1) / 2) * ds1 + (-(1) / 2) *
    ds2) v) (pxti4A : 0 < xti4A v) (hxfe3A : HasDerivAt xfe3A ((-1) * dr0 + (-1) * dr1 + (-1) * dr2) v) (pxfe3A
    : 0 < xfe3A v) (hxmg2B : HasDerivAt xmg2B ((1 / 2) * dr1 + (-(1) / 2) * ds1) v) (pxmg2B : 0 < xmg2B v)
    (hxti4B : HasDerivAt xti4B ((1 / 2) * dr0 + (1 / 2) * dr1 + (1 / 2) * dr2 + (1 / 2) * ds0 + (1 / 2) * ds1 +
    (1 / 2) * ds2) v) (pxti4B : 0 < xti4B v) (hxfe3B : HasDerivAt xfe3B ((-1) * dr0 + (-1) * dr1 + (-1) * dr2)
    v) (pxfe3B : 0 < xfe3B v) :
    HasDerivAt (fun v => D2GDR1R1 (t v) (xmg2A v) (xti4A v) (xfe3A v) (xmg2B v) (xti4B v) (xfe3B v))
    (((D3GDR0R0R1 (t v) (xti4A v) (xfe3A v) (xti4B v) (xfe3B v)) * dr0 + (D3GDR1R1R1 (t v) (xmg2A v) (xti4A v)
    (xfe3A v) (xmg2B v) (xti4B v) (xfe3B v)) * dr1 + (D3GDR0R0R1 (t v) (xti4A v) (xfe3A v) (xti4B v) (xfe3B v))
    * dr2) + ((D3GDR1R1DT (xmg2A v) (xti4A v) (xfe3A v) (xmg2B v) (xti4B v) (xfe3B v)) * dt + D3GDR1R1DP * dp) +
    ((D3GDR1R1S0 (t v) (xti4A v) (xti4B v)) * ds0 + (D3GDR1R1S1 (t v) (xmg2A v) (xti4A v) (xmg2B v) (xti4B v)) *
    ds1 + (D3GDR1R1S2 (t v) (xti4A v) (xti4B v)) * ds2)) v := by
  have nxmg2A := pxmg2A.ne'
  have nxti4A := pxti4A.ne'
  have nxfe3A := pxfe3A.ne'
  have nxmg2B := pxmg2B.ne'
  have nxti4B := pxti4B.ne'
  have nxfe3B := pxfe3B.ne'
  try simp only [D2GDR1R1, D3GDR1R1DT, D3GDR1R1DP, D3GDR0R0R1, D3GDR1R1R1, D3GDR1R1S0, D3GDR1R1S1, D3GDR1R1S2, zero_mul, mul_zero, add_zero, zero_add, sub_zero]
  refine HasDerivAt.congr_deriv (by hdq) ?_
  ring

lemma c_D2GDR1R2 {t p r0 r1 r2 s0 s1 s2 xti4A xfe3A xti4B xfe3B : ℝ → ℝ} {v dt dp dr0 dr1 dr2 ds0 ds1 ds2 : ℝ} (ht :
    HasDerivAt t dt v) (hp : HasDerivAt p dp v) (hr0 : HasDerivAt r0 dr0 v) (hr1 : HasDerivAt r1 dr1 v) (hr2 :
    HasDerivAt r2 dr2 v) (hs0 : HasDerivAt s0 ds0 v) (hs1 : HasDerivAt s1 ds1 v) (hs2 : HasDerivAt s2 ds2 v)
    (hxti4A : HasDerivAt xti4A ((1 / 2) * dr0 + (1 / 2) * dr1 + (1 / 2) * dr2 + (-(1) / 2) * ds0 + (-(1) / 2) *
    ds1 + (-(1) / 2) * ds2) v) (pxti4A : 0 < xti4A v) (hxfe3A : HasDerivAt xfe3A ((-1) * dr0 + (-1) * dr1 + (-1)
    * dr2) v) (pxfe3A : 0 < xfe3A v) (hxti4B : HasDerivAt xti4B ((1 / 2) * dr0 + (1 / 2) * dr1 + (1 / 2) * dr2 +
    (1 / 2) * ds0 + (1 / 2) * ds1 + (1 / 2) * ds2) v) (pxti4B : 0 < xti4B v) (hxfe3B : HasDerivAt xfe3B ((-1) *
    dr0 + (-1) * dr1 + (-1) * dr2) v) (pxfe3B : 0 < xfe3B v) :
    HasDerivAt (fun v => D2GDR1R2 (t v) (xti4A v) (xfe3A v) (xti4B v) (xfe3B v))
    (((D3GDR0R0R1 (t v) (xti4A v) (xfe3A v) (xti4B v) (xfe3B v)) * dr0 + (D3GDR0R0R1 (t v) (xti4A v) (xfe3A v)
    (xti4B v) (xfe3B v)) * dr1 + (D3GDR0R0R1 (t v) (xti4A v) (xfe3A v) (xti4B v) (xfe3B v)) * dr2) +
    ((D3GDR1R2DT (xti4A v) (xfe3A v) (xti4B v) (xfe3B v)) * dt + D3GDR1R2DP * dp) + ((D3GDR1R2S0 (t v) (xti4A v)
    (xti4B v)) * ds0 + (D3GDR1R2S1 (t v) (xti4A v) (xti4B v)) * ds1 + (D3GDR1R2S2 (t v) (xti4A v) (xti4B v)) *
    ds2)) v := by
  have nxti4A := pxti4A.ne'
  have nxfe3A := pxfe3A.ne'
  have nxti4B := pxti4B.ne'
  have nxfe3B := pxfe3B.ne'
  try simp only [D2GDR1R2, D3GDR1R2DT, D3GDR1R2DP, D3GDR0R0R1, D3GDR1R2S0, D3GDR1R2S1, D3GDR1R2S2, zero_mul, mul_zero, add_zero, zero_add, sub_zero]
  refine HasDerivAt.congr_deriv (by hdq) ?_
  ring

lemma c_D2GDR1S0 {t p r0 r1 r2 s0 s1 s2 xti4A xti4B : ℝ → ℝ} {v dt dp dr0 dr1 dr2 ds0 ds1 ds2 : ℝ} (ht : HasDerivAt t dt v)
    (hp : HasDerivAt p dp v) (hr0 : HasDerivAt r0 dr0 v) (hr1 : HasDerivAt r1 dr1 v) (hr2 : HasDerivAt r2 dr2 v)
    (hs0 : HasDerivAt s0 ds0 v) (hs1 : HasDerivAt s1 ds1 v) (hs2 : HasDerivAt s2 ds2 v) (hxti4A : HasDerivAt
    xti4A ((1 / 2) * dr0 + (1 / 2) * dr1 + (1 / 2) * dr2 + (-(1) / 2) * ds0 + (-(1) / 2) * ds1 + (-(1) / 2) *
    ds2) v) (pxti4A : 0 < xti4A v) (hxti4B : HasDerivAt xti4B ((1 / 2) * dr0 + (1 / 2) * dr1 + (1 / 2) * dr2 +
    (1 / 2) * ds0 + (1 / 2) * ds1 + (1 / 2) * ds2) v) (pxti4B : 0 < xti4B v) :
    HasDerivAt (fun v => D2GDR1S0 (t v) (s0 v) (xti4A v) (xti4B v))
    (((D3GDR0R1S0 (t v) (xti4A v) (xti4B v)) * dr0 + (D3GDR1R1S0 (t v) (xti4A v) (xti4B v)) * dr1 + (D3GDR1R2S0
    (t v) (xti4A v) (xti4B v)) * dr2) + ((D3GDR1S0DT (xti4A v) (xti4B v)) * dt + D3GDR1S0DP * dp) + ((D3GDR1S0S0
    (t v) (xti4A v) (xti4B v)) * ds0 + (D3GDR1S0S1 (t v) (xti4A v) (xti4B v)) * ds1 + (D3GDR1S0S2 (t v) (xti4A
    v) (xti4B v)) * ds2)) v := by
  have nxti4A := pxti4A.ne'
  have nxti4B := pxti4B.ne'
  try simp only [D2GDR1S0, D3GDR1S0DT, D3GDR1S0DP, D3GDR0R1S0, D3GDR1R1S0, D3GDR1R2S0, D3GDR1S0S0, D3GDR1S0S1, D3GDR1S0S2, zero_mul, mul_zero, add_zero, zero_add, sub_zero]
  refine HasDerivAt.congr_deriv (by hdq) ?_
  ring

lemma c_D2GDR1S1 {t p r0 r1 r2 s0 s1 s2 xmg2A xti4A xmg2B xti4B : ℝ → ℝ} {v dt dp dr0 dr1 dr2 ds0 ds1 ds2 : ℝ} (ht :
    HasDerivAt t dt v) (hp : HasDerivAt p dp v) (hr0 : HasDerivAt r0 dr0 v) (hr1 : HasDerivAt r1 dr1 v) (hr2 :
    HasDerivAt r2 dr2 v) (hs0 : HasDerivAt s0 ds0 v) (hs1 : HasDerivAt s1 ds1 v) (hs2 : HasDerivAt s2 ds2 v)
    (hxmg2A : HasDerivAt xmg2A ((1 / 2) * dr1 + (1 / 2) * ds1) v) (pxmg2A : 0 < xmg2A v) (hxti4A : HasDerivAt
    xti4A ((1 / 2) * dr0 + (1 / 2) * dr1 + (1 / 2) * dr2 + (-(1) / 2) * ds0 + (-(1) / 2) * ds1 + (-(1) / 2) *
    ds2) v) (pxti4A : 0 < xti4A v) (hxmg2B : HasDerivAt xmg2B ((1 / 2) * dr1 + (-(1) / 2) * ds1) v) (pxmg2B : 0
    < xmg2B v) (hxti4B : HasDerivAt xti4B ((1 / 2) * dr0 + (1 / 2) * dr1 + (1 / 2) * dr2 + (1 / 2) * ds0 + (1 /
    2) * ds1 + (1 / 2) * ds2) v) (pxti4B : 0 < xti4B v) :
    HasDerivAt (fun v => D2GDR1S1 (t v) (s1 v) (xmg2A v) (xti4A v) (xmg2B v) (xti4B v))
    (((D3GDR0R1S1 (t v) (xti4A v) (xti4B v)) * dr0 + (D3GDR1R1S1 (t v) (xmg2A v) (xti4A v) (xmg2B v) (xti4B v)) *
    dr1 + (D3GDR1R2S1 (t v) (xti4A v) (xti4B v)) * dr2) + ((D3GDR1S1DT (xmg2A v) (xti4A v) (xmg2B v) (xti4B v))
    * dt + D3GDR1S1DP * dp) + ((D3GDR1S0S1 (t v) (xti4A v) (xti4B v)) * ds0 + (D3GDR1S1S1 (t v) (xmg2A v) (xti4A
    v) (xmg2B v) (xti4B v)) * ds1 + (D3GDR1S1S2 (t v) (xti4A v) (xti4B v)) * ds2)) v := by
  have nxmg2A := pxmg2A.ne'
  have nxti4A := pxti4A.ne'
  have nxmg2B := pxmg2B.ne'
  have nxti4B := pxti4B.ne'
  try simp only [D2GDR1S1, D3GDR1S1DT, D3GDR1S1DP, D3GDR0R1S1, D3GDR1R1S1, D3GDR1R2S1, D3GDR1S0S1, D3GDR1S1S1, D3GDR1S1S2, zero_mul, mul_zero, add_zero, zero_add, sub_zero]
  refine HasDerivAt.congr_deriv (by hdq) ?_
  ring

lemma c_D2GDR1S2 {t p r0 r1 r2 s0 s1 s2 xti4A xti4B : ℝ → ℝ} {v dt dp dr0 dr1 dr2 ds0 ds1 ds2 : ℝ} (ht : HasDerivAt t dt v)
    (hp : HasDerivAt p dp v) (hr0 : HasDerivAt r0 dr0 v) (hr1 : HasDerivAt r1 dr1 v) (hr2 : HasDerivAt r2 dr2 v)
    (hs0 : HasDerivAt s0 ds0 v) (hs1 : HasDerivAt s1 ds1 v) (hs2 : HasDerivAt s2 ds2 v) (hxti4A : HasDerivAt
    xti4A ((1 / 2) * dr0 + (1 / 2) * dr1 + (1 / 2) * dr2 + (-(1) / 2) * ds0 + (-(1) / 2) * ds1 + (-(1) / 2) *
    ds2) v) (pxti4A : 0 < xti4A v) (hxti4B : HasDerivAt xti4B ((1 / 2) * dr0 + (1 / 2) * dr1 + (1 / 2) * dr2 +
    (1 / 2) * ds0 + (1 / 2) * ds1 + (1 / 2) * ds2) v) (pxti4B : 0 < xti4B v) :
    HasDerivAt (fun v => D2GDR1S2 (t v) (s2 v) (xti4A v) (xti4B v))
    (((D3GDR0R1S2 (t v) (xti4A v) (xti4B v)) * dr0 + (D3GDR1R1S2 (t v) (xti4A v) (xti4B v)) * dr1 + (D3GDR1R2S2
    (t v) (xti4A v) (xti4B v)) * dr2) + ((D3GDR1S2DT (xti4A v) (xti4B v)) * dt + D3GDR1S2DP * dp) + ((D3GDR1S0S2
    (t v) (xti4A v) (xti4B v)) * ds0 + (D3GDR1S1S2 (t v) (xti4A v) (xti4B v)) * ds1 + (D3GDR1S2S2 (t v) (xti4A
    v) (xti4B v)) * ds2)) v := by
  have nxti4A := pxti4A.ne'
  have nxti4B := pxti4B.ne'
  try simp only [D2GDR1S2, D3GDR1S2DT, D3GDR1S2DP, D3GDR0R1S2, D3GDR1R1S2, D3GDR1R2S2, D3GDR1S0S2, D3GDR1S1S2, D3GDR1S2S2, zero_mul, mul_zero, add_zero, zero_add, sub_zero]
  refine HasDerivAt.congr_deriv (by hdq) ?_
  ring

lemma c_D2GDR1DT {t p r0 r1 r2 s0 s1 s2 xmg2A xti4A xfe3A xmg2B xti4B xfe3B : ℝ → ℝ} {v dt dp dr0 dr1 dr2 ds0 ds1 ds2 : ℝ}
    (ht : HasDerivAt t dt v) (hp : HasDerivAt p dp v) (hr0 : HasDerivAt r0 dr0 v) (hr1 : HasDerivAt r1 dr1 v)
    (hr2 : HasDerivAt r2 dr2 v) (hs0 : HasDerivAt s0 ds0 v) (hs1 : HasDerivAt s1 ds1 v) (hs2 : HasDerivAt s2 ds2
    v) (hxmg2A : HasDerivAt xmg2A ((1 / 2) * dr1 + (1 / 2) * ds1) v) (pxmg2A : 0 < xmg2A v) (hxti4A : HasDerivAt
    xti4A ((1 / 2) * dr0 + (1 / 2) * dr1 + (1 / 2) * dr2 + (-(1) / 2) * ds0 + (-(1) / 2) * ds1 + (-(1) / 2) *
    ds2) v) (pxti4A : 0 < xti4A v) (hxfe3A : HasDerivAt xfe3A ((-1) * dr0 + (-1) * dr1 + (-1) * dr2) v) (pxfe3A
    : 0 < xfe3A v) (hxmg2B : HasDerivAt xmg2B ((1 / 2) * dr1 + (-(1) / 2) * ds1) v) (pxmg2B : 0 < xmg2B v)
    (hxti4B : HasDerivAt xti4B ((1 / 2) * dr0 + (1 / 2) * dr1 + (1 / 2) * dr2 + (1 / 2) * ds0 + (1 / 2) * ds1 +
    (1 / 2) * ds2) v) (pxti4B : 0 < xti4B v) (hxfe3B : HasDerivAt xfe3B ((-1) * dr0 + (-1) * dr1 + (-1) * dr2)
    v) (pxfe3B : 0 < xfe3B v) :
    HasDerivAt (fun v => D2GDR1DT (xmg2A v) (xti4A v) (xfe3A v) (xmg2B v) (xti4B v) (xfe3B v))
    (((D3GDR0R1DT (xti4A v) (xfe3A v) (xti4B v) (xfe3B v)) * dr0 + (D3GDR1R1DT (xmg2A v) (xti4A v) (xfe3A v)
    (xmg2B v) (xti4B v) (xfe3B v)) * dr1 + (D3GDR1R2DT (xti4A v) (xfe3A v) (xti4B v) (xfe3B v)) * dr2) +
    (D3GDR1DT2 * dt + D3GDR1DTDP * dp) + ((D3GDR1S0DT (xti4A v) (xti4B v)) * ds0 + (D3GDR1S1DT (xmg2A v) (xti4A
    v) (xmg2B v) (xti4B v)) * ds1 + (D3GDR1S2DT (xti4A v) (xti4B v)) * ds2)) v := by
  have nxmg2A := pxmg2A.ne'
  have nxti4A := pxti4A.ne'
  have nxfe3A := pxfe3A.ne'
  have nxmg2B := pxmg2B.ne'
  have nxti4B := pxti4B.ne'
  have nxfe3B := pxfe3B.ne'
  try simp only [D2GDR1DT, D3GDR1DT2, D3GDR1DTDP, D3GDR0R1DT, D3GDR1R1DT, D3GDR1R2DT, D3GDR1S0DT, D3GDR1S1DT, D3GDR1S2DT, zero_mul, mul_zero, add_zero, zero_add, sub_zero]
  refine HasDerivAt.congr_deriv (by hdq) ?_
  ring

lemma c_D2GDR1DP {t p r0 r1 r2 s0 s1 s2 : ℝ → ℝ} {v dt dp dr0 dr1 dr2 ds0 ds1 ds2 : ℝ} (ht : HasDerivAt t dt v) (hp :
    HasDerivAt p dp v) (hr0 : HasDerivAt r0 dr0 v) (hr1 : HasDerivAt r1 dr1 v) (hr2 : HasDerivAt r2 dr2 v) (hs0
    : HasDerivAt s0 ds0 v) (hs1 : HasDerivAt s1 ds1 v) (hs2 : HasDerivAt s2 ds2 v) :
    HasDerivAt (fun v => D2GDR1DP)
    ((D3GDR0R1DP * dr0 + D3GDR1R1DP * dr1 + D3GDR1R2DP * dr2) + (D3GDR1DTDP * dt + D3GDR1DP2 * dp) + (D3GDR1S0DP
    * ds0 + D3GDR1S1DP * ds1 + D3GDR1S2DP * ds2)) v := by
  try simp only [D2GDR1DP, D3GDR1DTDP, D3GDR1DP2, D3GDR0R1DP, D3GDR1R1DP, D3GDR1R2DP, D3GDR1S0DP, D3GDR1S1DP, D3GDR1S2DP, zero_mul, mul_zero, add_zero, zero_add, sub_zero]
  refine HasDerivAt.congr_deriv (by hdq) ?_
  ring

lemma c_D2GDR2R2 {t p r0 r1 r2 s0 s1 s2 xmn2A xti4A xfe3A xmn2B xti4B xfe3B : ℝ → ℝ} {v dt dp dr0 dr1 dr2 ds0 ds1 ds2 : ℝ}
    (ht : HasDerivAt t dt v) (hp : HasDerivAt p dp v) (hr0 : HasDerivAt r0 dr0 v) (hr1 : HasDerivAt r1 dr1 v)
    (hr2 : HasDerivAt r2 dr2 v) (hs0 : HasDerivAt s0 ds0 v) (hs1 : HasDerivAt s1 ds1 v) (hs2 : HasDerivAt s2 ds2
    v) (hxmn2A : HasDerivAt xmn2A ((1 / 2) * dr2 + (1 / 2) * ds2) v) (pxmn2A : 0 < xmn2A v) (hxti4A : HasDerivAt
    xti4A ((1 / 2) * dr0 + (1 / 2) * dr1 + (1 / 2) * dr2 + (-(1) / 2) * ds0 + (-(1) / 2) * ds1 + (-(1) / 2) *
    ds2) v) (pxti4A : 0 < xti4A v) (hxfe3A : HasDerivAt xfe3A ((-1) * dr0 + (-1) * dr1 + (-1) * dr2) v) (pxfe3A
    : 0 < xfe3A v) (hxmn2B : HasDerivAt xmn2B ((1 / 2) * dr2 + (-(1) / 2) * ds2) v) (pxmn2B : 0 < xmn2B v)
    (hxti4B : HasDerivAt xti4B ((1 / 2) * dr0 + (1 / 2) * dr1 + (1 / 2) * dr2 + (1 / 2) * ds0 + (1 / 2) * ds1 +
    (1 / 2) * ds2) v) (pxti4B : 0 < xti4B v) (hxfe3B : HasDerivAt xfe3B ((-1) * dr0 + (-1) * dr1 + (-1) * dr2)
    v) (pxfe3B : 0 < xfe3B v) :
    HasDerivAt (fun v => D2GDR2R2 (t v) (xmn2A v) (xti4A v) (xfe3A v) (xmn2B v) (xti4B v) (xfe3B v))
    (((D3GDR0R0R1 (t v) (xti4A v) (xfe3A v) (xti4B v) (xfe3B v)) * dr0 + (D3GDR0R0R1 (t v) (xti4A v) (xfe3A v)
    (xti4B v) (xfe3B v)) * dr1 + (D3GDR2R2R2 (t v) (xmn2A v) (xti4A v) (xfe3A v) (xmn2B v) (xti4B v) (xfe3B v))
    * dr2) + ((D3GDR2R2DT (xmn2A v) (xti4A v) (xfe3A v) (xmn2B v) (xti4B v) (xfe3B v)) * dt + D3GDR2R2DP * dp) +
    ((D3GDR2R2S0 (t v) (xti4A v) (xti4B v)) * ds0 + (D3GDR2R2S1 (t v) (xti4A v) (xti4B v)) * ds1 + (D3GDR2R2S2
    (t v) (xmn2A v) (xti4A v) (xmn2B v) (xti4B v)) * ds2)) v := by
  have nxmn2A := pxmn2A.ne'
  have nxti4A := pxti4A.ne'
  have nxfe3A := pxfe3A.ne'
  have nxmn2B := pxmn2B.ne'
  have nxti4B := pxti4B.ne'
  have nxfe3B := pxfe3B.ne'
  try simp only [D2GDR2R2, D3GDR2R2DT, D3GDR2R2DP, D3GDR0R0R1, D3GDR2R2R2, D3GDR2R2S0, D3GDR2R2S1, D3GDR2R2S2, zero_mul, mul_zero, add_zero, zero_add, sub_zero]
  refine HasDerivAt.congr_deriv (by hdq) ?_
  ring

lemma c_D2GDR2S0 {t p r0 r1 r2 s0 s1 s2 xti4A xti4B : ℝ → ℝ} {v dt dp dr0 dr1 dr2 ds0 ds1 ds2 : ℝ} (ht : HasDerivAt t dt v)
    (hp : HasDerivAt p dp v) (hr0 : HasDerivAt r0 dr0 v) (hr1 : HasDerivAt r1 dr1 v) (hr2 : HasDerivAt r2 dr2 v)
    (hs0 : HasDerivAt s0 ds0 v) (hs1 : HasDerivAt s1 ds1 v) (hs2 : HasDerivAt s2 ds2 v) (hxti4A : HasDerivAt
    xti4A ((1 / 2) * dr0 + (1 / 2) * dr1 + (1 / 2) * dr2 + (-(1) / 2) * ds0 + (-(1) / 2) * ds1 + (-(1) / 2) *
    ds2) v) (pxti4A : 0 < xti4A v) (hxti4B : HasDerivAt xti4B ((1 / 2) * dr0 + (1 / 2) * dr1 + (1 / 2) * dr2 +
    (1 / 2) * ds0 + (1 / 2) * ds1 + (1 / 2) * ds2) v) (pxti4B : 0 < xti4B v) :
    HasDerivAt (fun v => D2GDR2S0 (t v) (s0 v) (xti4A v) (xti4B v))
    (((D3GDR0R2S0 (t v) (xti4A v) (xti4B v)) * dr0 + (D3GDR1R2S0 (t v) (xti4A v) (xti4B v)) * dr1 + (D3GDR2R2S0
    (t v) (xti4A v) (xti4B v)) * dr2) + ((D3GDR2S0DT (xti4A v) (xti4B v)) * dt + D3GDR2S0DP * dp) + ((D3GDR2S0S0
    (t v) (xti4A v) (xti4B v)) * ds0 + (D3GDR2S0S1 (t v) (xti4A v) (xti4B v)) * ds1 + (D3GDR2S0S2 (t v) (xti4A
    v) (xti4B v)) * ds2)) v := by
  have nxti4A := pxti4A.ne'
  have nxti4B := pxti4B.ne'
  try simp only [D2GDR2S0, D3GDR2S0DT, D3GDR2S0DP, D3GDR0R2S0, D3GDR1R2S0, D3GDR2R2S0, D3GDR2S0S0, D3GDR2S0S1, D3GDR2S0S2, zero_mul, mul_zero, add_zero, zero_add, sub_zero]
  refine HasDerivAt.congr_deriv (by hdq) ?_
  ring

lemma c_D2GDR2S1 {t p r0 r1 r2 s0 s1 s2 xti4A xti4B : ℝ → ℝ} {v dt dp dr0 dr1 dr2 ds0 ds1 ds2 : ℝ} (ht : HasDerivAt t dt v)
    (hp : HasDerivAt p dp v) (hr0 : HasDerivAt r0 dr0 v) (hr1 : HasDerivAt r1 dr1 v) (hr2 : HasDerivAt r2 dr2 v)
    (hs0 : HasDerivAt s0 ds0 v) (hs1 : HasDerivAt s1 ds1 v) (hs2 : HasDerivAt s2 ds2 v) (hxti4A : HasDerivAt
    xti4A ((1 / 2) * dr0 + (1 / 2) * dr1 + (1 / 2) * dr2 + (-(1) / 2) * ds0 + (-(1) / 2) * ds1 + (-(1) / 2) *
    ds2) v) (pxti4A : 0 < xti4A v) (hxti4B : HasDerivAt xti4B ((1 / 2) * dr0 + (1 / 2) * dr1 + (1 / 2) * dr2 +
    (1 / 2) * ds0 + (1 / 2) * ds1 + (1 / 2) * ds2) v) (pxti4B : 0 < xti4B v) :
    HasDerivAt (fun v => D2GDR2S1 (t v) (s1 v) (xti4A v) (xti4B v))
    (((D3GDR0R2S1 (t v) (xti4A v) (xti4B v)) * dr0 + (D3GDR1R2S1 (t v) (xti4A v) (xti4B v)) * dr1 + (D3GDR2R2S1
    (t v) (xti4A v) (xti4B v)) * dr2) + ((D3GDR2S1DT (xti4A v) (xti4B v)) * dt + D3GDR2S1DP * dp) + ((D3GDR2S0S1
    (t v) (xti4A v) (xti4B v)) * ds0 + (D3GDR2S1S1 (t v) (xti4A v) (xti4B v)) * ds1 + (D3GDR2S1S2 (t v) (xti4A
    v) (xti4B v)) * ds2)) v := by
  have nxti4A := pxti4A.ne'
  have nxti4B := pxti4B.ne'
  try simp only [D2GDR2S1, D3GDR2S1DT, D3GDR2S1DP, D3GDR0R2S1, D3GDR1R2S1, D3GDR2R2S1, D3GDR2S0S1, D3GDR2S1S1, D3GDR2S1S2, zero_mul, mul_zero, add_zero, zero_add, sub_zero]
  refine HasDerivAt.congr_deriv (by hdq) ?_
  ring

lemma c_D2GDR2S2 {t p r0 r1 r2 s0 s1 s2 xmn2A xti4A xmn2B xti4B : ℝ → ℝ} {v dt dp dr0 dr1 dr2 ds0 ds1 ds2 : ℝ} (ht :
    HasDerivAt t dt v) (hp : HasDerivAt p dp v) (hr0 : HasDerivAt r0 dr0 v) (hr1 : HasDerivAt r1 dr1 v) (hr2 :
    HasDerivAt r2 dr2 v) (hs0 : HasDerivAt s0 ds0 v) (hs1 : HasDerivAt s1 ds1 v) (hs2 : HasDerivAt s2 ds2 v)
    (hxmn2A : HasDerivAt xmn2A ((1 / 2) * dr2 + (1 / 2) * ds2) v) (pxmn2A : 0 < xmn2A v) (hxti4A : HasDerivAt
    xti4A ((1 / 2) * dr0 + (1 / 2) * dr1 + (1 / 2) * dr2 + (-(1) / 2) * ds0 + (-(1) / 2) * ds1 + (-(1) / 2) *
    ds2) v) (pxti4A : 0 < xti4A v) (hxmn2B : HasDerivAt xmn2B ((1 / 2) * dr2 + (-(1) / 2) * ds2) v) (pxmn2B : 0
    < xmn2B v) (hxti4B : HasDerivAt xti4B ((1 / 2) * dr0 + (1 / 2) * dr1 + (1 / 2) * dr2 + (1 / 2) * ds0 + (1 /
    2) * ds1 + (1 / 2) * ds2) v) (pxti4B : 0 < xti4B v) :
    HasDerivAt (fun v => D2GDR2S2 (t v) (s2 v) (xmn2A v) (xti4A v) (xmn2B v) (xti4B v))
    (((D3GDR0R2S2 (t v) (xti4A v) (xti4B v)) * dr0 + (D3GDR1R2S2 (t v) (xti4A v) (xti4B v)) * dr1 + (D3GDR2R2S2
    (t v) (xmn2A v) (xti4A v) (xmn2B v) (xti4B v)) * dr2) + ((D3GDR2S2DT (xmn2A v) (xti4A v) (xmn2B v) (xti4B
    v)) * dt + D3GDR2S2DP * dp) + ((D3GDR2S0S2 (t v) (xti4A v) (xti4B v)) * ds0 + (D3GDR2S1S2 (t v) (xti4A v)
    (xti4B v)) * ds1 + (D3GDR2S2S2 (t v) (xmn2A v) (xti4A v) (xmn2B v) (xti4B v)) * ds2)) v := by
  have nxmn2A := pxmn2A.ne'
  have nxti4A := pxti4A.ne'
  have nxmn2B := pxmn2B.ne'
  have nxti4B := pxti4B.ne'
  try simp only [D2GDR2S2, D3GDR2S2DT, D3GDR2S2DP, D3GDR0R2S2, D3GDR1R2S2, D3GDR2R2S2, D3GDR2S0S2, D3GDR2S1S2, D3GDR2S2S2, zero_mul, mul_zero, add_zero, zero_add, sub_zero]
  refine HasDerivAt.congr_deriv (by hdq) ?_
  ring

lemma c_D2GDR2DT {t p r0 r1 r2 s0 s1 s2 xmn2A xti4A xfe3A xmn2B xti4B xfe3B : ℝ → ℝ} {v dt dp dr0 dr1 dr2 ds0 ds1 ds2 : ℝ}
    (ht : HasDerivAt t dt v) (hp : HasDerivAt p dp v) (hr0 : HasDerivAt r0 dr0 v) (hr1 : HasDerivAt r1 dr1 v)
    (hr2 : HasDerivAt r2 dr2 v) (hs0 : HasDerivAt s0 ds0 v) (hs1 : HasDerivAt s1 ds1 v) (hs2 : HasDerivAt s2 ds2
    v) (hxmn2A : HasDerivAt xmn2A ((1 / 2) * dr2 + (1 / 2) * ds2) v) (pxmn2A : 0 < xmn2A v) (hxti4A : HasDerivAt
    xti4A ((1 / 2) * dr0 + (1 / 2) * dr1 + (1 / 2) * dr2 + (-(1) / 2) * ds0 + (-(1) / 2) * ds1 + (-(1) / 2) *
    ds2) v) (pxti4A : 0 < xti4A v) (hxfe3A : HasDerivAt xfe3A ((-1) * dr0 + (-1) * dr1 + (-1) * dr2) v) (pxfe3A
    : 0 < xfe3A v) (hxmn2B : HasDerivAt xmn2B ((1 / 2) * dr2 + (-(1) / 2) * ds2) v) (pxmn2B : 0 < xmn2B v)
    (hxti4B : HasDerivAt xti4B ((1 / 2) * dr0 + (1 / 2) * dr1 + (1 / 2) * dr2 + (1 / 2) * ds0 + (1 / 2) * ds1 +
    (1 / 2) * ds2) v) (pxti4B : 0 < xti4B v) (hxfe3B : HasDerivAt xfe3B ((-1) * dr0 + (-1) * dr1 + (-1) * dr2)
    v) (pxfe3B : 0 < xfe3B v) :
    HasDerivAt (fun v => D2GDR2DT (xmn2A v) (xti4A v) (xfe3A v) (xmn2B v) (xti4B v) (xfe3B v))
    (((D3GDR0R2DT (xti4A v) (xfe3A v) (xti4B v) (xfe3B v)) * dr0 + (D3GDR1R2DT (xti4A v) (xfe3A v) (xti4B v)
    (xfe3B v)) * dr1 + (D3GDR2R2DT (xmn2A v) (xti4A v) (xfe3A v) (xmn2B v) (xti4B v) (xfe3B v)) * dr2) +
    (D3GDR2DT2 * dt + D3GDR2DTDP * dp) + ((D3GDR2S0DT (xti4A v) (xti4B v)) * ds0 + (D3GDR2S1DT (xti4A v) (xti4B
    v)) * ds1 + (D3GDR2S2DT (xmn2A v) (xti4A v) (xmn2B v) (xti4B v)) * ds2)) v := by
  have nxmn2A := pxmn2A.ne'
  have nxti4A := pxti4A.ne'
  have nxfe3A := pxfe3A.ne'
  have nxmn2B := pxmn2B.ne'
  have nxti4B := pxti4B.ne'
  have nxfe3B := pxfe3B.ne'
  try simp only [D2GDR2DT, D3GDR2DT2, D3GDR2DTDP, D3GDR0R2DT, D3GDR1R2DT, D3GDR2R2DT, D3GDR2S0DT, D3GDR2S1DT, D3GDR2S2DT, zero_mul, mul_zero, add_zero, zero_add, sub_zero]
  refine HasDerivAt.congr_deriv (by hdq) ?_
  ring

lemma c_D2GDR2DP {t p r0 r1 r2 s0 s1 s2 : ℝ → ℝ} {v dt dp dr0 dr1 dr2 ds0 ds1 ds2 : ℝ} (ht : HasDerivAt t dt v) (hp :
    HasDerivAt p dp v) (hr0 : HasDerivAt r0 dr0 v) (hr1 : HasDerivAt r1 dr1 v) (hr2 : HasDerivAt r2 dr2 v) (hs0
    : HasDerivAt s0 ds0 v) (hs1 : HasDerivAt s1 ds1 v) (hs2 : HasDerivAt s2 ds2 v) :
    HasDerivAt (fun v => D2GDR2DP)
    ((D3GDR0R2DP * dr0 + D3GDR1R2DP * dr1 + D3GDR2R2DP * dr2) + (D3GDR2DTDP * dt + D3GDR2DP2 * dp) + (D3GDR2S0DP
    * ds0 + D3GDR2S1DP * ds1 + D3GDR2S2DP * ds2)) v := by
  try simp only [D2GDR2DP, D3GDR2DTDP, D3GDR2DP2, D3GDR0R2DP, D3GDR1R2DP, D3GDR2R2DP, D3GDR2S0DP, D3GDR2S1DP, D3GDR2S2DP, zero_mul, mul_zero, add_zero, zero_add, sub_zero]
  refine HasDerivAt.congr_deriv (by hdq) ?_
  ring

lemma c_D2GDS0S0 {t p r0 r1 r2 s0 s1 s2 xfe2A xti4A xfe2B xti4B : ℝ → ℝ} {v dt dp dr0 dr1 dr2 ds0 ds1 ds2 : ℝ} (ht :
    HasDerivAt t dt v) (hp : HasDerivAt p dp v) (hr0 : HasDerivAt r0 dr0 v) (hr1 : HasDerivAt r1 dr1 v) (hr2 :
    HasDerivAt r2 dr2 v) (hs0 : HasDerivAt s0 ds0 v) (hs1 : HasDerivAt s1 ds1 v) (hs2 : HasDerivAt s2 ds2 v)
    (hxfe2A : HasDerivAt xfe2A ((1 / 2) * dr0 + (1 / 2) * ds0) v) (pxfe2A : 0 < xfe2A v) (hxti4A : HasDerivAt
    xti4A ((1 / 2) * dr0 + (1 / 2) * dr1 + (1 / 2) * dr2 + (-(1) / 2) * ds0 + (-(1) / 2) * ds1 + (-(1) / 2) *
    ds2) v) (pxti4A : 0 < xti4A v) (hxfe2B : HasDerivAt xfe2B ((1 / 2) * dr0 + (-(1) / 2) * ds0) v) (pxfe2B : 0
    < xfe2B v) (hxti4B : HasDerivAt xti4B ((1 / 2) * dr0 + (1 / 2) * dr1 + (1 / 2) * dr2 + (1 / 2) * ds0 + (1 /
    2) * ds1 + (1 / 2) * ds2) v) (pxti4B : 0 < xti4B v) :
    HasDerivAt (fun v => D2GDS0S0 (t v) (r0 v) (r1 v) (r2 v) (xfe2A v) (xti4A v) (xfe2B v) (xti4B v))
    (((D3GDR0S0S0 (t v) (xfe2A v) (xti4A v) (xfe2B v) (xti4B v)) * dr0 + (D3GDR1S0S0 (t v) (xti4A v) (xti4B v)) *
    dr1 + (D3GDR2S0S0 (t v) (xti4A v) (xti4B v)) * dr2) + ((D3GDS0S0DT (xfe2A v) (xti4A v) (xfe2B v) (xti4B v))
    * dt + D3GDS0S0DP * dp) + ((D3GDS0S0S0 (t v) (xfe2A v) (xti4A v) (xfe2B v) (xti4B v)) * ds0 + (D3GDS0S0S1 (t
    v) (xti4A v) (xti4B v)) * ds1 + (D3GDS0S0S2 (t v) (xti4A v) (xti4B v)) * ds2)) v := by
  have nxfe2A := pxfe2A.ne'
  have nxti4A := pxti4A.ne'
  have nxfe2B := pxfe2B.ne'
  have nxti4B := pxti4B.ne'
  try simp only [D2GDS0S0, D3GDS0S0DT, D3GDS0S0DP, D3GDR0S0S0, D3GDR1S0S0, D3GDR2S0S0, D3GDS0S0S0, D3GDS0S0S1, D3GDS0S0S2, zero_mul, mul_zero, add_zero, zero_add, sub_zero]
  refine HasDerivAt.congr_deriv (by hdq) ?_
  ring

lemma c_D2GDS0S1 {t p r0 r1 r2 s0 s1 s2 xti4A xti4B : ℝ → ℝ} {v dt dp dr0 dr1 dr2 ds0 ds1 ds2 : ℝ} (ht : HasDerivAt t dt v)
    (hp : HasDerivAt p dp v) (hr0 : HasDerivAt r0 dr0 v) (hr1 : HasDerivAt r1 dr1 v) (hr2 : HasDerivAt r2 dr2 v)
    (hs0 : HasDerivAt s0 ds0 v) (hs1 : HasDerivAt s1 ds1 v) (hs2 : HasDerivAt s2 ds2 v) (hxti4A : HasDerivAt
    xti4A ((1 / 2) * dr0 + (1 / 2) * dr1 + (1 / 2) * dr2 + (-(1) / 2) * ds0 + (-(1) / 2) * ds1 + (-(1) / 2) *
    ds2) v) (pxti4A : 0 < xti4A v) (hxti4B : HasDerivAt xti4B ((1 / 2) * dr0 + (1 / 2) * dr1 + (1 / 2) * dr2 +
    (1 / 2) * ds0 + (1 / 2) * ds1 + (1 / 2) * ds2) v) (pxti4B : 0 < xti4B v) :
    HasDerivAt (fun v => D2GDS0S1 (t v) (xti4A v) (xti4B v))
    (((D3GDR0S0S1 (t v) (xti4A v) (xti4B v)) * dr0 + (D3GDR1S0S1 (t v) (xti4A v) (xti4B v)) * dr1 + (D3GDR2S0S1
    (t v) (xti4A v) (xti4B v)) * dr2) + ((D3GDS0S1DT (xti4A v) (xti4B v)) * dt + D3GDS0S1DP * dp) + ((D3GDS0S0S1
    (t v) (xti4A v) (xti4B v)) * ds0 + (D3GDS0S1S1 (t v) (xti4A v) (xti4B v)) * ds1 + (D3GDS0S1S2 (t v) (xti4A
    v) (xti4B v)) * ds2)) v := by
  have nxti4A := pxti4A.ne'
  have nxti4B := pxti4B.ne'
  try simp only [D2GDS0S1, D3GDS0S1DT, D3GDS0S1DP, D3GDR0S0S1, D3GDR1S0S1, D3GDR2S0S1, D3GDS0S0S1, D3GDS0S1S1, D3GDS0S1S2, zero_mul, mul_zero, add_zero, zero_add, sub_zero]
  refine HasDerivAt.congr_deriv (by hdq) ?_
  ring

lemma c_D2GDS0S2 {t p r0 r1 r2 s0 s1 s2 xti4A xti4B : ℝ → ℝ} {v dt dp dr0 dr1 dr2 ds0 ds1 ds2 : ℝ} (ht : HasDerivAt t dt v)
    (hp : HasDerivAt p dp v) (hr0 : HasDerivAt r0 dr0 v) (hr1 : HasDerivAt r1 dr1 v) (hr2 : HasDerivAt r2 dr2 v)
    (hs0 : HasDerivAt s0 ds0 v) (hs1 : HasDerivAt s1 ds1 v) (hs2 : HasDerivAt s2 ds2 v) (hxti4A : HasDerivAt
    xti4A ((1 / 2) * dr0 + (1 / 2) * dr1 + (1 / 2) * dr2 + (-(1) / 2) * ds0 + (-(1) / 2) * ds1 + (-(1) / 2) *
    ds2) v) (pxti4A : 0 < xti4A v) (hxti4B : HasDerivAt xti4B ((1 / 2) * dr0 + (1 / 2) * dr1 + (1 / 2) * dr2 +
    (1 / 2) * ds0 + (1 / 2) * ds1 + (1 / 2) * ds2) v) (pxti4B : 0 < xti4B v) :
    HasDerivAt (fun v => D2GDS0S2 (t v) (xti4A v) (xti4B v))
    (((D3GDR0S0S2 (t v) (xti4A v) (xti4B v)) * dr0 + (D3GDR1S0S2 (t v) (xti4A v) (xti4B v)) * dr1 + (D3GDR2S0S2
    (t v) (xti4A v) (xti4B v)) * dr2) + ((D3GDS0S2DT (xti4A v) (xti4B v)) * dt + D3GDS0S2DP * dp) + ((D3GDS0S0S2
    (t v) (xti4A v) (xti4B v)) * ds0 + (D3GDS0S1S2 (t v) (xti4A v) (xti4B v)) * ds1 + (D3GDS0S2S2 (t v) (xti4A
    v) (xti4B v)) * ds2)) v := by
  have nxti4A := pxti4A.ne'
  have nxti4B := pxti4B.ne'
  try simp only [D2GDS0S2, D3GDS0S2DT, D3GDS0S2DP, D3GDR0S0S2, D3GDR1S0S2, D3GDR2S0S2, D3GDS0S0S2, D3GDS0S1S2, D3GDS0S2S2, zero_mul, mul_zero, add_zero, zero_add, sub_zero]
  refine HasDerivAt.congr_deriv (by hdq) ?_
  ring

lemma c_D2GDS0DT {t p r0 r1 r2 s0 s1 s2 xfe2A xti4A xfe2B xti4B : ℝ → ℝ} {v dt dp dr0 dr1 dr2 ds0 ds1 ds2 : ℝ} (ht :
    HasDerivAt t dt v) (hp : HasDerivAt p dp v) (hr0 : HasDerivAt r0 dr0 v) (hr1 : HasDerivAt r1 dr1 v) (hr2 :
    HasDerivAt r2 dr2 v) (hs0 : HasDerivAt s0 ds0 v) (hs1 : HasDerivAt s1 ds1 v) (hs2 : HasDerivAt s2 ds2 v)
    (hxfe2A : HasDerivAt xfe2A ((1 / 2) * dr0 + (1 / 2) * ds0) v) (pxfe2A : 0 < xfe2A v) (hxti4A : HasDerivAt
    xti4A ((1 / 2) * dr0 + (1 / 2) * dr1 + (1 / 2) * dr2 + (-(1) / 2) * ds0 + (-(1) / 2) * ds1 + (-(1) / 2) *
    ds2) v) (pxti4A : 0 < xti4A v) (hxfe2B : HasDerivAt xfe2B ((1 / 2) * dr0 + (-(1) / 2) * ds0) v) (pxfe2B : 0
    < xfe2B v) (hxti4B : HasDerivAt xti4B ((1 / 2) * dr0 + (1 / 2) * dr1 + (1 / 2) * dr2 + (1 / 2) * ds0 + (1 /
    2) * ds1 + (1 / 2) * ds2) v) (pxti4B : 0 < xti4B v) :
    HasDerivAt (fun v => D2GDS0DT (xfe2A v) (xti4A v) (xfe2B v) (xti4B v))
    (((D3GDR0S0DT (xfe2A v) (xti4A v) (xfe2B v) (xti4B v)) * dr0 + (D3GDR1S0DT (xti4A v) (xti4B v)) * dr1 +
    (D3GDR2S0DT (xti4A v) (xti4B v)) * dr2) + (D3GDS0DT2 * dt + D3GDS0DTDP * dp) + ((D3GDS0S0DT (xfe2A v) (xti4A
    v) (xfe2B v) (xti4B v)) * ds0 + (D3GDS0S1DT (xti4A v) (xti4B v)) * ds1 + (D3GDS0S2DT (xti4A v) (xti4B v)) *
    ds2)) v := by
  have nxfe2A := pxfe2A.ne'
  have nxti4A := pxti4A.ne'
  have nxfe2B := pxfe2B.ne'
  have nxti4B := pxti4B.ne'
  try simp only [D2GDS0DT, D3GDS0DT2, D3GDS0DTDP, D3GDR0S0DT, D3GDR1S0DT, D3GDR2S0DT, D3GDS0S0DT, D3GDS0S1DT, D3GDS0S2DT, zero_mul, mul_zero, add_zero, zero_add, sub_zero]
  refine HasDerivAt.congr_deriv (by hdq) ?_
  ring

lemma c_D2GDS0DP {t p r0 r1 r2 s0 s1 s2 : ℝ → ℝ} {v dt dp dr0 dr1 dr2 ds0 ds1 ds2 : ℝ} (ht : HasDerivAt t dt v) (hp :
    HasDerivAt p dp v) (hr0 : HasDerivAt r0 dr0 v) (hr1 : HasDerivAt r1 dr1 v) (hr2 : HasDerivAt r2 dr2 v) (hs0
    : HasDerivAt s0 ds0 v) (hs1 : HasDerivAt s1 ds1 v) (hs2 : HasDerivAt s2 ds2 v) :
    HasDerivAt (fun v => D2GDS0DP)
    ((D3GDR0S0DP * dr0 + D3GDR1S0DP * dr1 + D3GDR2S0DP * dr2) + (D3GDS0DTDP * dt + D3GDS0DP2 * dp) + (D3GDS0S0DP
    * ds0 + D3GDS0S1DP * ds1 + D3GDS0S2DP * ds2)) v := by
  try simp only [D2GDS0DP, D3GDS0DTDP, D3GDS0DP2, D3GDR0S0DP, D3GDR1S0DP, D3GDR2S0DP, D3GDS0S0DP, D3GDS0S1DP, D3GDS0S2DP, zero_mul, mul_zero, add_zero, zero_add, sub_zero]
  refine HasDerivAt.congr_deriv (by hdq) ?_
  ring

lemma c_D2GDS1S1 {t p r0 r1 r2 s0 s1 s2 xmg2A xti4A xmg2B xti4B : ℝ → ℝ} {v dt dp dr0 dr1 dr2 ds0 ds1 ds2 : ℝ} (ht :
    HasDerivAt t dt v) (hp : HasDerivAt p dp v) (hr0 : HasDerivAt r0 dr0 v) (hr1 : HasDerivAt r1 dr1 v) (hr2 :
    HasDerivAt r2 dr2 v) (hs0 : HasDerivAt s0 ds0 v) (hs1 : HasDerivAt s1 ds1 v) (hs2 : HasDerivAt s2 ds2 v)
    (hxmg2A : HasDerivAt xmg2A ((1 / 2) * dr1 + (1 / 2) * ds1) v) (pxmg2A : 0 < xmg2A v) (hxti4A : HasDerivAt
    xti4A ((1 / 2) * dr0 + (1 / 2) * dr1 + (1 / 2) * dr2 + (-(1) / 2) * ds0 + (-(1) / 2) * ds1 + (-(1) / 2) *
    ds2) v) (pxti4A : 0 < xti4A v) (hxmg2B : HasDerivAt xmg2B ((1 / 2) * dr1 + (-(1) / 2) * ds1) v) (pxmg2B : 0
    < xmg2B v) (hxti4B : HasDerivAt xti4B ((1 / 2) * dr0 + (1 / 2) * dr1 + (1 / 2) * dr2 + (1 / 2) * ds0 + (1 /
    2) * ds1 + (1 / 2) * ds2) v) (pxti4B : 0 < xti4B v) :
    HasDerivAt (fun v => D2GDS1S1 (t v) (r0 v) (r1 v) (r2 v) (xmg2A v) (xti4A v) (xmg2B v) (xti4B v))
    (((D3GDR0S1S1 (t v) (xti4A v) (xti4B v)) * dr0 + (D3GDR1S1S1 (t v) (xmg2A v) (xti4A v) (xmg2B v) (xti4B v)) *
    dr1 + (D3GDR2S1S1 (t v) (xti4A v) (xti4B v)) * dr2) + ((D3GDS1S1DT (xmg2A v) (xti4A v) (xmg2B v) (xti4B v))
    * dt + D3GDS1S1DP * dp) + ((D3GDS0S1S1 (t v) (xti4A v) (xti4B v)) * ds0 + (D3GDS1S1S1 (t v) (xmg2A v) (xti4A
    v) (xmg2B v) (xti4B v)) * ds1 + (D3GDS1S1S2 (t v) (xti4A v) (xti4B v)) * ds2)) v := by
  have nxmg2A := pxmg2A.ne'
  have nxti4A := pxti4A.ne'
  have nxmg2B := pxmg2B.ne'
  have nxti4B := pxti4B.ne'
  try simp only [D2GDS1S1, D3GDS1S1DT, D3GDS1S1DP, D3GDR0S1S1, D3GDR1S1S1, D3GDR2S1S1, D3GDS0S1S1, D3GDS1S1S1, D3GDS1S1S2, zero_mul, mul_zero, add_zero, zero_add, sub_zero]
  refine HasDerivAt.congr_deriv (by hdq) ?_
  ring

lemma c_D2GDS1S2 {t p r0 r1 r2 s0 s1 s2 xti4A xti4B : ℝ → ℝ} {v dt dp dr0 dr1 dr2 ds0 ds1 ds2 : ℝ} (ht : HasDerivAt t dt v)
    (hp : HasDerivAt p dp v) (hr0 : HasDerivAt r0 dr0 v) (hr1 : HasDerivAt r1 dr1 v) (hr2 : HasDerivAt r2 dr2 v)
    (hs0 : HasDerivAt s0 ds0 v) (hs1 : HasDerivAt s1 ds1 v) (hs2 : HasDerivAt s2 ds2 v) (hxti4A : HasDerivAt
    xti4A ((1 / 2) * dr0 + (1 / 2) * dr1 + (1 / 2) * dr2 + (-(1) / 2) * ds0 + (-(1) / 2) * ds1 + (-(1) / 2) *
    ds2) v) (pxti4A : 0 < xti4A v) (hxti4B : HasDerivAt xti4B ((1 / 2) * dr0 + (1 / 2) * dr1 + (1 / 2) * dr2 +
    (1 / 2) * ds0 + (1 / 2) * ds1 + (1 / 2) * ds2) v) (pxti4B : 0 < xti4B v) :
    HasDerivAt (fun v => D2GDS1S2 (t v) (xti4A v) (xti4B v))
    (((D3GDR0S1S2 (t v) (xti4A v) (xti4B v)) * dr0 + (D3GDR1S1S2 (t v) (xti4A v) (xti4B v)) * dr1 + (D3GDR2S1S2
    (t v) (xti4A v) (xti4B v)) * dr2) + ((D3GDS1S2DT (xti4A v) (xti4B v)) * dt + D3GDS1S2DP * dp) + ((D3GDS0S1S2
    (t v) (xti4A v) (xti4B v)) * ds0 + (D3GDS1S1S2 (t v) (xti4A v) (xti4B v)) * ds1 + (D3GDS1S2S2 (t v) (xti4A
    v) (xti4B v)) * ds2)) v := by
  have nxti4A := pxti4A.ne'
  have nxti4B := pxti4B.ne'
  try simp only [D2GDS1S2, D3GDS1S2DT, D3GDS1S2DP, D3GDR0S1S2, D3GDR1S1S2, D3GDR2S1S2, D3GDS0S1S2, D3GDS1S1S2, D3GDS1S2S2, zero_mul, mul_zero, add_zero, zero_add, sub_zero]
  refine HasDerivAt.congr_deriv (by hdq) ?_
  ring

lemma c_D2GDS1DT {t p r0 r1 r2 s0 s1 s2 xmg2A xti4A xmg2B xti4B : ℝ → ℝ} {v dt dp dr0 dr1 dr2 ds0 ds1 ds2 : ℝ} (ht :
    HasDerivAt t dt v) (hp : HasDerivAt p dp v) (hr0 : HasDerivAt r0 dr0 v) (hr1 : HasDerivAt r1 dr1 v) (hr2 :
    HasDerivAt r2 dr2 v) (hs0 : HasDerivAt s0 ds0 v) (hs1 : HasDerivAt s1 ds1 v) (hs2 : HasDerivAt s2 ds2 v)
    (hxmg2A : HasDerivAt xmg2A ((1 / 2) * dr1 + (1 / 2) * ds1) v) (pxmg2A : 0 < xmg2A v) (hxti4A : HasDerivAt
    xti4A ((1 / 2) * dr0 + (1 / 2) * dr1 + (1 / 2) * dr2 + (-(1) / 2) * ds0 + (-(1) / 2) * ds1 + (-(1) / 2) *
    ds2) v) (pxti4A : 0 < xti4A v) (hxmg2B : HasDerivAt xmg2B ((1 / 2) * dr1 + (-(1) / 2) * ds1) v) (pxmg2B : 0
    < xmg2B v) (hxti4B : HasDerivAt xti4B ((1 / 2) * dr0 + (1 / 2) * dr1 + (1 / 2) * dr2 + (1 / 2) * ds0 + (1 /
    2) * ds1 + (1 / 2) * ds2) v) (pxti4B : 0 < xti4B v) :
    HasDerivAt (fun v => D2GDS1DT (xmg2A v) (xti4A v) (xmg2B v) (xti4B v))
    (((D3GDR0S1DT (xti4A v) (xti4B v)) * dr0 + (D3GDR1S1DT (xmg2A v) (xti4A v) (xmg2B v) (xti4B v)) * dr1 +
    (D3GDR2S1DT (xti4A v) (xti4B v)) * dr2) + (D3GDS1DT2 * dt + D3GDS1DTDP * dp) + ((D3GDS0S1DT (xti4A v) (xti4B
    v)) * ds0 + (D3GDS1S1DT (xmg2A v) (xti4A v) (xmg2B v) (xti4B v)) * ds1 + (D3GDS1S2DT (xti4A v) (xti4B v)) *
    ds2)) v := by
  have nxmg2A := pxmg2A.ne'
  have nxti4A := pxti4A.ne'
  have nxmg2B := pxmg2B.ne'
  have nxti4B := pxti4B.ne'
  try simp only [D2GDS1DT, D3GDS1DT2, D3GDS1DTDP, D3GDR0S1DT, D3GDR1S1DT, D3GDR2S1DT, D3GDS0S1DT, D3GDS1S1DT, D3GDS1S2DT, zero_mul, mul_zero, add_zero, zero_add, sub_zero]
  refine HasDerivAt.congr_deriv (by hdq) ?_
  ring

lemma c_D2GDS1DP {t p r0 r1 r2 s0 s1 s2 : ℝ → ℝ} {v dt dp dr0 dr1 dr2 ds0 ds1 ds2 : ℝ} (ht : HasDerivAt t dt v) (hp :
    HasDerivAt p dp v) (hr0 : HasDerivAt r0 dr0 v) (hr1 : HasDerivAt r1 dr1 v) (hr2 : HasDerivAt r2 dr2 v) (hs0
    : HasDerivAt s0 ds0 v) (hs1 : HasDerivAt s1 ds1 v) (hs2 : HasDerivAt s2 ds2 v) :
    HasDerivAt (fun v => D2GDS1DP)
    ((D3GDR0S1DP * dr0 + D3GDR1S1DP * dr1 + D3GDR2S1DP * dr2) + (D3GDS1DTDP * dt + D3GDS1DP2 * dp) + (D3GDS0S1DP
    * ds0 + D3GDS1S1DP * ds1 + D3GDS1S2DP * ds2)) v := by
  try simp only [D2GDS1DP, D3GDS1DTDP, D3GDS1DP2, D3GDR0S1DP, D3GDR1S1DP, D3GDR2S1DP, D3GDS0S1DP, D3GDS1S1DP, D3GDS1S2DP, zero_mul, mul_zero, add_zero, zero_add, sub_zero]
  refine HasDerivAt.congr_deriv (by hdq) ?_
  ring

lemma c_D2GDS2S2 {t p r0 r1 r2 s0 s1 s2 xmn2A xti4A xmn2B xti4B : ℝ → ℝ} {v dt dp dr0 dr1 dr2 ds0 ds1 ds2 : ℝ} (ht :
    HasDerivAt t dt v) (hp : HasDerivAt p dp v) (hr0 : HasDerivAt r0 dr0 v) (hr1 : HasDerivAt r1 dr1 v) (hr2 :
    HasDerivAt r2 dr2 v) (hs0 : HasDerivAt s0 ds0 v) (hs1 : HasDerivAt s1 ds1 v) (hs2 : HasDerivAt s2 ds2 v)
    (hxmn2A : HasDerivAt xmn2A ((1 / 2) * dr2 + (1 / 2) * ds2) v) (pxmn2A : 0 < xmn2A v) (hxti4A : HasDerivAt
    xti4A ((1 / 2) * dr0 + (1 / 2) * dr1 + (1 / 2) * dr2 + (-(1) / 2) * ds0 + (-(1) / 2) * ds1 + (-(1) / 2) *
    ds2) v) (pxti4A : 0 < xti4A v) (hxmn2B : HasDerivAt xmn2B ((1 / 2) * dr2 + (-(1) / 2) * ds2) v) (pxmn2B : 0
    < xmn2B v) (hxti4B : HasDerivAt xti4B ((1 / 2) * dr0 + (1 / 2) * dr1 + (1 / 2) * dr2 + (1 / 2) * ds0 + (1 /
    2) * ds1 + (1 / 2) * ds2) v) (pxti4B : 0 < xti4B v) :
    HasDerivAt (fun v => D2GDS2S2 (t v) (r0 v) (r1 v) (r2 v) (xmn2A v) (xti4A v) (xmn2B v) (xti4B v))
    (((D3GDR0S2S2 (t v) (xti4A v) (xti4B v)) * dr0 + (D3GDR1S2S2 (t v) (xti4A v) (xti4B v)) * dr1 + (D3GDR2S2S2
    (t v) (xmn2A v) (xti4A v) (xmn2B v) (xti4B v)) * dr2) + ((D3GDS2S2DT (xmn2A v) (xti4A v) (xmn2B v) (xti4B
    v)) * dt + D3GDS2S2DP * dp) + ((D3GDS0S2S2 (t v) (xti4A v) (xti4B v)) * ds0 + (D3GDS1S2S2 (t v) (xti4A v)
    (xti4B v)) * ds1 + (D3GDS2S2S2 (t v) (xmn2A v) (xti4A v) (xmn2B v) (xti4B v)) * ds2)) v := by
  have nxmn2A := pxmn2A.ne'
  have nxti4A := pxti4A.ne'
  have nxmn2B := pxmn2B.ne'
  have nxti4B := pxti4B.ne'
  try simp only [D2GDS2S2, D3GDS2S2DT, D3GDS2S2DP, D3GDR0S2S2, D3GDR1S2S2, D3GDR2S2S2, D3GDS0S2S2, D3GDS1S2S2, D3GDS2S2S2, zero_mul, mul_zero, add_zero, zero_add, sub_zero]
  refine HasDerivAt.congr_deriv (by hdq) ?_
  ring

lemma c_D2GDS2DT {t p r0 r1 r2 s0 s1 s2 xmn2A xti4A xmn2B xti4B : ℝ → ℝ} {v dt dp dr0 dr1 dr2 ds0 ds1 ds2 : ℝ} (ht :
    HasDerivAt t dt v) (hp : HasDerivAt p dp v) (hr0 : HasDerivAt r0 dr0 v) (hr1 : HasDerivAt r1 dr1 v) (hr2 :
    HasDerivAt r2 dr2 v) (hs0 : HasDerivAt s0 ds0 v) (hs1 : HasDerivAt s1 ds1 v) (hs2 : HasDerivAt s2 ds2 v)
    (hxmn2A : HasDerivAt xmn2A ((1 / 2) * dr2 + (1 / 2) * ds2) v) (pxmn2A : 0 < xmn2A v) (hxti4A : HasDerivAt
    xti4A ((1 / 2) * dr0 + (1 / 2) * dr1 + (1 / 2) * dr2 + (-(1) / 2) * ds0 + (-(1) / 2) * ds1 + (-(1) / 2) *
    ds2) v) (pxti4A : 0 < xti4A v) (hxmn2B : HasDerivAt xmn2B ((1 / 2) * dr2 + (-(1) / 2) * ds2) v) (pxmn2B : 0
    < xmn2B v) (hxti4B : HasDerivAt xti4B ((1 / 2) * dr0 + (1 / 2) * dr1 + (1 / 2) * dr2 + (1 / 2) * ds0 + (1 /
    2) * ds1 + (1 / 2) * ds2) v) (pxti4B : 0 < xti4B v) :
    HasDerivAt (fun v => D2GDS2DT (xmn2A v) (xti4A v) (xmn2B v) (xti4B v))
    (((D3GDR0S2DT (xti4A v) (xti4B v)) * dr0 + (D3GDR1S2DT (xti4A v) (xti4B v)) * dr1 + (D3GDR2S2DT (xmn2A v)
    (xti4A v) (xmn2B v) (xti4B v)) * dr2) + (D3GDS2DT2 * dt + D3GDS2DTDP * dp) + ((D3GDS0S2DT (xti4A v) (xti4B
    v)) * ds0 + (D3GDS1S2DT (xti4A v) (xti4B v)) * ds1 + (D3GDS2S2DT (xmn2A v) (xti4A v) (xmn2B v) (xti4B v)) *
    ds2)) v := by
  have nxmn2A := pxmn2A.ne'
  have nxti4A := pxti4A.ne'
  have nxmn2B := pxmn2B.ne'
  have nxti4B := pxti4B.ne'
  try simp only [D2GDS2DT, D3GDS2DT2, D3GDS2DTDP, D3GDR0S2DT, D3GDR1S2DT, D3GDR2S2DT, D3GDS0S2DT, D3GDS1S2DT, D3GDS2S2DT, zero_mul, mul_zero, add_zero, zero_add, sub_zero]
  refine HasDerivAt.congr_deriv (by hdq) ?_
  ring

lemma c_D2GDS2DP {t p r0 r1 r2 s0 s1 s2 : ℝ → ℝ} {v dt dp dr0 dr1 dr2 ds0 ds1 ds2 : ℝ} (ht : HasDerivAt t dt v) (hp :
    HasDerivAt p dp v) (hr0 : HasDerivAt r0 dr0 v) (hr1 : HasDerivAt r1 dr1 v) (hr2 : HasDerivAt r2 dr2 v) (hs0
    : HasDerivAt s0 ds0 v) (hs1 : HasDerivAt s1 ds1 v) (hs2 : HasDerivAt s2 ds2 v) :
    HasDerivAt (fun v => D2GDS2DP)
    ((D3GDR0S2DP * dr0 + D3GDR1S2DP * dr1 + D3GDR2S2DP * dr2) + (D3GDS2DTDP * dt + D3GDS2DP2 * dp) + (D3GDS0S2DP
    * ds0 + D3GDS1S2DP * ds1 + D3GDS2S2DP * ds2)) v := by
  try simp only [D2GDS2DP, D3GDS2DTDP, D3GDS2DP2, D3GDR0S2DP, D3GDR1S2DP, D3GDR2S2DP, D3GDS0S2DP, D3GDS1S2DP, D3GDS2S2DP, zero_mul, mul_zero, add_zero, zero_add, sub_zero]
  refine HasDerivAt.congr_deriv (by hdq) ?_
  ring

lemma c_D2GDT2 {t p r0 r1 r2 s0 s1 s2 : ℝ → ℝ} {v dt dp dr0 dr1 dr2 ds0 ds1 ds2 : ℝ} (ht : HasDerivAt t dt v) (hp :
    HasDerivAt p dp v) (hr0 : HasDerivAt r0 dr0 v) (hr1 : HasDerivAt r1 dr1 v) (hr2 : HasDerivAt r2 dr2 v) (hs0
    : HasDerivAt s0 ds0 v) (hs1 : HasDerivAt s1 ds1 v) (hs2 : HasDerivAt s2 ds2 v) :
    HasDerivAt (fun v => D2GDT2)
    ((D3GDR0DT2 * dr0 + D3GDR1DT2 * dr1 + D3GDR2DT2 * dr2) + (D3GDT3 * dt + D3GDT2DP * dp) + (D3GDS0DT2 * ds0 +
    D3GDS1DT2 * ds1 + D3GDS2DT2 * ds2)) v := by
  try simp only [D2GDT2, D3GDT3, D3GDT2DP, D3GDR0DT2, D3GDR1DT2, D3GDR2DT2, D3GDS0DT2, D3GDS1DT2, D3GDS2DT2, zero_mul, mul_zero, add_zero, zero_add, sub_zero]
  refine HasDerivAt.congr_deriv (by hdq) ?_
  ring

lemma c_D2GDTDP {t p r0 r1 r2 s0 s1 s2 : ℝ → ℝ} {v dt dp dr0 dr1 dr2 ds0 ds1 ds2 : ℝ} (ht : HasDerivAt t dt v) (hp :
    HasDerivAt p dp v) (hr0 : HasDerivAt r0 dr0 v) (hr1 : HasDerivAt r1 dr1 v) (hr2 : HasDerivAt r2 dr2 v) (hs0
    : HasDerivAt s0 ds0 v) (hs1 : HasDerivAt s1 ds1 v) (hs2 : HasDerivAt s2 ds2 v) :
    HasDerivAt (fun v => D2GDTDP)
    ((D3GDR0DTDP * dr0 + D3GDR1DTDP * dr1 + D3GDR2DTDP * dr2) + (D3GDT2DP * dt + D3GDTDP2 * dp) + (D3GDS0DTDP *
    ds0 + D3GDS1DTDP * ds1 + D3GDS2DTDP * ds2)) v := by
  try simp only [D2GDTDP, D3GDT2DP, D3GDTDP2, D3GDR0DTDP, D3GDR1DTDP, D3GDR2DTDP, D3GDS0DTDP, D3GDS1DTDP, D3GDS2DTDP, zero_mul, mul_zero, add_zero, zero_add, sub_zero]
  refine HasDerivAt.congr_deriv (by hdq) ?_
  ring

lemma c_D2GDP2 {t p r0 r1 r2 s0 s1 s2 : ℝ → ℝ} {v dt dp dr0 dr1 dr2 ds0 ds1 ds2 : ℝ} (ht : HasDerivAt t dt v) (hp :
    HasDerivAt p dp v) (hr0 : HasDerivAt r0 dr0 v) (hr1 : HasDerivAt r1 dr1 v) (hr2 : HasDerivAt r2 dr2 v) (hs0
    : HasDerivAt s0 ds0 v) (hs1 : HasDerivAt s1 ds1 v) (hs2 : HasDerivAt s2 ds2 v) :
    HasDerivAt (fun v => D2GDP2)
    ((D3GDR0DP2 * dr0 + D3GDR1DP2 * dr1 + D3GDR2DP2 * dr2) + (D3GDTDP2 * dt + D3GDP3 * dp) + (D3GDS0DP2 * ds0 +
    D3GDS1DP2 * ds1 + D3GDS2DP2 * ds2)) v := by
  try simp only [D2GDP2, D3GDTDP2, D3GDP3, D3GDR0DP2, D3GDR1DP2, D3GDR2DP2, D3GDS0DP2, D3GDS1DP2, D3GDS2DP2, zero_mul, mul_zero, add_zero, zero_add, sub_zero]
  refine HasDerivAt.congr_deriv (by hdq) ?_
  ring

attribute [local irreducible] S H G DGDR0 DGDR1 DGDR2 DGDS0 DGDS1 DGDS2 DGDT D2GDR0R0 D2GDR0R1 D2GDR0R2
    D2GDR0S0 D2GDR0S1 D2GDR0S2 D2GDR0DT D2GDR1R1 D2GDR1R2 D2GDR1S0 D2GDR1S1 D2GDR1S2 D2GDR1DT D2GDR2R2 D2GDR2S0
    D2GDR2S1 D2GDR2S2 D2GDR2DT D2GDS0S0 D2GDS0S1 D2GDS0S2 D2GDS0DT D2GDS1S1 D2GDS1S2 D2GDS1DT D2GDS2S2 D2GDS2DT
    D3GDR0R0R0 D3GDR0R0R1 D3GDR0R0S0 D3GDR0R0S1 D3GDR0R0S2 D3GDR0R0DT D3GDR0R1S0 D3GDR0R1S1 D3GDR0R1S2
    D3GDR0R1DT D3GDR0R2S0 D3GDR0R2S1 D3GDR0R2S2 D3GDR0R2DT D3GDR0S0S0 D3GDR0S0S1 D3GDR0S0S2 D3GDR0S0DT
    D3GDR0S1S1 D3GDR0S1S2 D3GDR0S1DT D3GDR0S2S2 D3GDR0S2DT D3GDR1R1R1 D3GDR1R1S0 D3GDR1R1S1 D3GDR1R1S2
    D3GDR1R1DT D3GDR1R2S0 D3GDR1R2S1 D3GDR1R2S2 D3GDR1R2DT D3GDR1S0S0 D3GDR1S0S1 D3GDR1S0S2 D3GDR1S0DT
    D3GDR1S1S1 D3GDR1S1S2 D3GDR1S1DT D3GDR1S2S2 D3GDR1S2DT D3GDR2R2R2 D3GDR2R2S0 D3GDR2R2S1 D3GDR2R2S2
    D3GDR2R2DT D3GDR2S0S0 D3GDR2S0S1 D3GDR2S0S2 D3GDR2S0DT D3GDR2S1S1 D3GDR2S1S2 D3GDR2S1DT D3GDR2S2S2
    D3GDR2S2DT D3GDS0S0S0 D3GDS0S0S1 D3GDS0S0S2 D3GDS0S0DT D3GDS0S1S1 D3GDS0S1S2 D3GDS0S1DT D3GDS0S2S2
    D3GDS0S2DT D3GDS1S1S1 D3GDS1S1S2 D3GDS1S1DT D3GDS1S2S2 D3GDS1S2DT D3GDS2S2S2 D3GDS2S2DT

lemma gr_g (y : Var 3 3 → ℝ) (hy : Dom y) :
    Gr (fun y => (tables (raw y) y).g) y ((tables (raw y) y).at1) := by
  refine Gr.of_lines ?_ fun u => ?_
  · have hp := pos y hy
    change DifferentiableAt ℝ (fun y => G (y (.inl iT)) (y (.inl (.inl 0))) (y (.inl (.inl 1))) (y (.inl (.inl 2))) (y (.inr 0)) (y (.inr 1)) (y (.inr 2)) (raw y 0) (raw y 1) (raw y 2) (raw y 3) (raw y 4) (raw y 5) (raw y 6) (raw y 7) (raw y 8) (raw y 9)) y
    have d0 := raw_diff 0 y
    have q0 := hp.1
    have n0 := q0.ne'
    have d1 := raw_diff 1 y
    have q1 := hp.2.1
    have n1 := q1.ne'
    have d2 := raw_diff 2 y
    have q2 := hp.2.2.1
    have n2 := q2.ne'
    have d3 := raw_diff 3 y
    have q3 := hp.2.2.2.1
    have n3 := q3.ne'
    have d4 := raw_diff 4 y
    have q4 := hp.2.2.2.2.1
    have n4 := q4.ne'
    have d5 := raw_diff 5 y
    have q5 := hp.2.2.2.2.2.1
    have n5 := q5.ne'
    have d6 := raw_diff 6 y
    have q6 := hp.2.2.2.2.2.2.1
    have n6 := q6.ne'
    have d7 := raw_diff 7 y
    have q7 := hp.2.2.2.2.2.2.2.1
    have n7 := q7.ne'
    have d8 := raw_diff 8 y
    have q8 := hp.2.2.2.2.2.2.2.2.1
    have n8 := q8.ne'
    have d9 := raw_diff 9 y
    have q9 := hp.2.2.2.2.2.2.2.2.2
    have n9 := q9.ne'
    try simp only [H, S, G, zero_mul, mul_zero, add_zero, zero_add, sub_zero]
    ddq
  · have hp := pos y hy
    have h := c_G (hl y u ((.inl iT))) (hl y u ((.inl iP))) (hl y u ((.inl (.inl 0)))) (hl y u ((.inl (.inl
        1)))) (hl y u ((.inl (.inl 2)))) (hl y u ((.inr 0))) (hl y u ((.inr 1))) (hl y u ((.inr
        2))) (raw_line0 y u) (by simpa only [zero_mul, add_zero] using hp.1) (raw_line1 y u) (by
        simpa only [zero_mul, add_zero] using hp.2.1) (raw_line2 y u) (by simpa only [zero_mul,
        add_zero] using hp.2.2.1) (raw_line3 y u) (by simpa only [zero_mul, add_zero] using
        hp.2.2.2.1) (raw_line4 y u) (by simpa only [zero_mul, add_zero] using hp.2.2.2.2.1)
        (raw_line5 y u) (by simpa only [zero_mul, add_zero] using hp.2.2.2.2.2.1) (raw_line6 y u)
        (by simpa only [zero_mul, add_zero] using hp.2.2.2.2.2.2.1) (raw_line7 y u) (by simpa only
        [zero_mul, add_zero] using hp.2.2.2.2.2.2.2.1) (raw_line8 y u) (by simpa only [zero_mul,
        add_zero] using hp.2.2.2.2.2.2.2.2.1) (raw_line9 y u) (by simpa only [zero_mul, add_zero]
        using hp.2.2.2.2.2.2.2.2.2)
    try simp only [zero_mul, add_zero] at h
    refine h.congr_deriv ?_
    rw [sum_var]; simp only [Fin.sum_univ_three]; rfl

lemma gr_dgdr_0 (y : Var 3 3 → ℝ) (hy : Dom y) :
    Gr (fun y => (tables (raw y) y).dgdr 0) y ((tables (raw y) y).at2 (.inl (.inl 0))) := by
  refine Gr.of_lines ?_ fun u => ?_
  · have hp := pos y hy
    change DifferentiableAt ℝ (fun y => DGDR0 (y (.inl iT)) (y (.inl (.inl 0))) (y (.inl (.inl 1))) (y (.inl (.inl 2))) (y (.inr 0)) (y (.inr 1)) (y (.inr 2)) (raw y 0) (raw y 3) (raw y 4) (raw y 5) (raw y 8) (raw y 9)) y
    have d0 := raw_diff 0 y
    have q0 := hp.1
    have n0 := q0.ne'
    have d3 := raw_diff 3 y
    have q3 := hp.2.2.2.1
    have n3 := q3.ne'
    have d4 := raw_diff 4 y
    have q4 := hp.2.2.2.2.1
    have n4 := q4.ne'
    have d5 := raw_diff 5 y
    have q5 := hp.2.2.2.2.2.1
    have n5 := q5.ne'
    have d8 := raw_diff 8 y
    have q8 := hp.2.2.2.2.2.2.2.2.1
    have n8 := q8.ne'
    have d9 := raw_diff 9 y
    have q9 := hp.2.2.2.2.2.2.2.2.2
    have n9 := q9.ne'
    try simp only [DGDR0, zero_mul, mul_zero, add_zero, zero_add, sub_zero]
    ddq
  · have hp := pos y hy
    have h := c_DGDR0 (hl y u ((.inl iT))) (hl y u ((.inl iP))) (hl y u ((.inl (.inl 0)))) (hl y u ((.inl (.inl
        1)))) (hl y u ((.inl (.inl 2)))) (hl y u ((.inr 0))) (hl y u ((.inr 1))) (hl y u ((.inr
        2))) (raw_line0 y u) (by simpa only [zero_mul, add_zero] using hp.1) (raw_line3 y u) (by
        simpa only [zero_mul, add_zero] using hp.2.2.2.1) (raw_line4 y u) (by simpa only
        [zero_mul, add_zero] using hp.2.2.2.2.1) (raw_line5 y u) (by simpa only [zero_mul,
        add_zero] using hp.2.2.2.2.2.1) (raw_line8 y u) (by simpa only [zero_mul, add_zero] using
        hp.2.2.2.2.2.2.2.2.1) (raw_line9 y u) (by simpa only [zero_mul, add_zero] using
        hp.2.2.2.2.2.2.2.2.2)
    try simp only [zero_mul, add_zero] at h
    refine h.congr_deriv ?_
    rw [sum_var]; simp only [Fin.sum_univ_three]; rfl

lemma gr_dgdr_1 (y : Var 3 3 → ℝ) (hy : Dom y) :
    Gr (fun y => (tables (raw y) y).dgdr 1) y ((tables (raw y) y).at2 (.inl (.inl 1))) := by
  refine Gr.of_lines ?_ fun u => ?_
  · have hp := pos y hy
    change DifferentiableAt ℝ (fun y => DGDR1 (y (.inl iT)) (y (.inl (.inl 0))) (y (.inl (.inl 1))) (y (.inl (.inl 2))) (y (.inr 0)) (y (.inr 1)) (y (.inr 2)) (raw y 1) (raw y 3) (raw y 4) (raw y 6) (raw y 8) (raw y 9)) y
    have d1 := raw_diff 1 y
    have q1 := hp.2.1
    have n1 := q1.ne'
    have d3 := raw_diff 3 y
    have q3 := hp.2.2.2.1
    have n3 := q3.ne'
    have d4 := raw_diff 4 y
    have q4 := hp.2.2.2.2.1
    have n4 := q4.ne'
    have d6 := raw_diff 6 y
    have q6 := hp.2.2.2.2.2.2.1
    have n6 := q6.ne'
    have d8 := raw_diff 8 y
    have q8 := hp.2.2.2.2.2.2.2.2.1
    have n8 := q8.ne'
    have d9 := raw_diff 9 y
    have q9 := hp.2.2.2.2.2.2.2.2.2
    have n9 := q9.ne'
    try simp only [DGDR1, zero_mul, mul_zero, add_zero, zero_add, sub_zero]
    ddq
  · have hp := pos y hy
    have h := c_DGDR1 (hl y u ((.inl iT))) (hl y u ((.inl iP))) (hl y u ((.inl (.inl 0)))) (hl y u ((.inl (.inl
        1)))) (hl y u ((.inl (.inl 2)))) (hl y u ((.inr 0))) (hl y u ((.inr 1))) (hl y u ((.inr
        2))) (raw_line1 y u) (by simpa only [zero_mul, add_zero] using hp.2.1) (raw_line3 y u) (by
        simpa only [zero_mul, add_zero] using hp.2.2.2.1) (raw_line4 y u) (by simpa only
        [zero_mul, add_zero] using hp.2.2.2.2.1) (raw_line6 y u) (by simpa only [zero_mul,
        add_zero] using hp.2.2.2.2.2.2.1) (raw_line8 y u) (by simpa only [zero_mul, add_zero]
        using hp.2.2.2.2.2.2.2.2.1) (raw_line9 y u) (by simpa only [zero_mul, add_zero] using
        hp.2.2.2.2.2.2.2.2.2)
    try simp only [zero_mul, add_zero] at h
    refine h.congr_deriv ?_
    rw [sum_var]; simp only [Fin.sum_univ_three]; rfl

lemma gr_dgdr_2 (y : Var 3 3 → ℝ) (hy : Dom y) :
    Gr (fun y => (tables (raw y) y).dgdr 2) y ((tables (raw y) y).at2 (.inl (.inl 2))) := by
  refine Gr.of_lines ?_ fun u => ?_
  · have hp := pos y hy
    change DifferentiableAt ℝ (fun y => DGDR2 (y (.inl iT)) (y (.inl (.inl 0))) (y (.inl (.inl 1))) (y (.inl (.inl 2))) (y (.inr 0)) (y (.inr 1)) (y (.inr 2)) (raw y 2) (raw y 3) (raw y 4) (raw y 7) (raw y 8) (raw y 9)) y
    have d2 := raw_diff 2 y
    have q2 := hp.2.2.1
    have n2 := q2.ne'
    have d3 := raw_diff 3 y
    have q3 := hp.2.2.2.1
    have n3 := q3.ne'
    have d4 := raw_diff 4 y
    have q4 := hp.2.2.2.2.1
    have n4 := q4.ne'
    have d7 := raw_diff 7 y
    have q7 := hp.2.2.2.2.2.2.2.1
    have n7 := q7.ne'
    have d8 := raw_diff 8 y
    have q8 := hp.2.2.2.2.2.2.2.2.1
    have n8 := q8.ne'
    have d9 := raw_diff 9 y
    have q9 := hp.2.2.2.2.2.2.2.2.2
    have n9 := q9.ne'
    try simp only [DGDR2, zero_mul, mul_zero, add_zero, zero_add, sub_zero]
    ddq
  · have hp := pos y hy
    have h := c_DGDR2 (hl y u ((.inl iT))) (hl y u ((.inl iP))) (hl y u ((.inl (.inl 0)))) (hl y u ((.inl (.inl
        1)))) (hl y u ((.inl (.inl 2)))) (hl y u ((.inr 0))) (hl y u ((.inr 1))) (hl y u ((.inr
        2))) (raw_line2 y u) (by simpa only [zero_mul, add_zero] using hp.2.2.1) (raw_line3 y u)
        (by simpa only [zero_mul, add_zero] using hp.2.2.2.1) (raw_line4 y u) (by simpa only
        [zero_mul, add_zero] using hp.2.2.2.2.1) (raw_line7 y u) (by simpa only [zero_mul,
        add_zero] using hp.2.2.2.2.2.2.2.1) (raw_line8 y u) (by simpa only [zero_mul, add_zero]
        using hp.2.2.2.2.2.2.2.2.1) (raw_line9 y u) (by simpa only [zero_mul, add_zero] using
        hp.2.2.2.2.2.2.2.2.2)
    try simp only [zero_mul, add_zero] at h
    refine h.congr_deriv ?_
    rw [sum_var]; simp only [Fin.sum_univ_three]; rfl

lemma gr_dgds_0 (y : Var 3 3 → ℝ) (hy : Dom y) :
    Gr (fun y => (tables (raw y) y).dgds 0) y ((tables (raw y) y).at2 (.inr 0)) := by
  refine Gr.of_lines ?_ fun u => ?_
  · have hp := pos y hy
    change DifferentiableAt ℝ (fun y => DGDS0 (y (.inl iT)) (y (.inl (.inl 0))) (y (.inl (.inl 1))) (y (.inl (.inl 2))) (y (.inr 0)) (y (.inr 1)) (y (.inr 2)) (raw y 0) (raw y 3) (raw y 5) (raw y 8)) y
    have d0 := raw_diff 0 y
    have q0 := hp.1
    have n0 := q0.ne'
    have d3 := raw_diff 3 y
    have q3 := hp.2.2.2.1
    have n3 := q3.ne'
    have d5 := raw_diff 5 y
    have q5 := hp.2.2.2.2.2.1
    have n5 := q5.ne'
    have d8 := raw_diff 8 y
    have q8 := hp.2.2.2.2.2.2.2.2.1
    have n8 := q8.ne'
    try simp only [DGDS0, zero_mul, mul_zero, add_zero, zero_add, sub_zero]
    ddq
  · have hp := pos y hy
    have h := c_DGDS0 (hl y u ((.inl iT))) (hl y u ((.inl iP))) (hl y u ((.inl (.inl 0)))) (hl y u ((.inl (.inl
        1)))) (hl y u ((.inl (.inl 2)))) (hl y u ((.inr 0))) (hl y u ((.inr 1))) (hl y u ((.inr
        2))) (raw_line0 y u) (by simpa only [zero_mul, add_zero] using hp.1) (raw_line3 y u) (by
        simpa only [zero_mul, add_zero] using hp.2.2.2.1) (raw_line5 y u) (by simpa only
        [zero_mul, add_zero] using hp.2.2.2.2.2.1) (raw_line8 y u) (by simpa only [zero_mul,
        add_zero] using hp.2.2.2.2.2.2.2.2.1)
    try simp only [zero_mul, add_zero] at h
    refine h.congr_deriv ?_
    rw [sum_var]; simp only [Fin.sum_univ_three]; rfl

lemma gr_dgds_1 (y : Var 3 3 → ℝ) (hy : Dom y) :
    Gr (fun y => (tables (raw y) y).dgds 1) y ((tables (raw y) y).at2 (.inr 1)) := by
  refine Gr.of_lines ?_ fun u => ?_
  · have hp := pos y hy
    change DifferentiableAt ℝ (fun y => DGDS1 (y (.inl iT)) (y (.inl (.inl 0))) (y (.inl (.inl 1))) (y (.inl (.inl 2))) (y (.inr 0)) (y (.inr 1)) (y (.inr 2)) (raw y 1) (raw y 3) (raw y 6) (raw y 8)) y
    have d1 := raw_diff 1 y
    have q1 := hp.2.1
    have n1 := q1.ne'
    have d3 := raw_diff 3 y
    have q3 := hp.2.2.2.1
    have n3 := q3.ne'
    have d6 := raw_diff 6 y
    have q6 := hp.2.2.2.2.2.2.1
    have n6 := q6.ne'
    have d8 := raw_diff 8 y
    have q8 := hp.2.2.2.2.2.2.2.2.1
    have n8 := q8.ne'
    try simp only [DGDS1, zero_mul, mul_zero, add_zero, zero_add, sub_zero]
    ddq
  · have hp := pos y hy
    have h := c_DGDS1 (hl y u ((.inl iT))) (hl y u ((.inl iP))) (hl y u ((.inl (.inl 0)))) (hl y u ((.inl (.inl
        1)))) (hl y u ((.inl (.inl 2)))) (hl y u ((.inr 0))) (hl y u ((.inr 1))) (hl y u ((.inr
        2))) (raw_line1 y u) (by simpa only [zero_mul, add_zero] using hp.2.1) (raw_line3 y u) (by
        simpa only [zero_mul, add_zero] using hp.2.2.2.1) (raw_line6 y u) (by simpa only
        [zero_mul, add_zero] using hp.2.2.2.2.2.2.1) (raw_line8 y u) (by simpa only [zero_mul,
        add_zero] using hp.2.2.2.2.2.2.2.2.1)
    try simp only [zero_mul, add_zero] at h
    refine h.congr_deriv ?_
    rw [sum_var]; simp only [Fin.sum_univ_three]; rfl

lemma gr_dgds_2 (y : Var 3 3 → ℝ) (hy : Dom y) :
    Gr (fun y => (tables (raw y) y).dgds 2) y ((tables (raw y) y).at2 (.inr 2)) := by
  refine Gr.of_lines ?_ fun u => ?_
  · have hp := pos y hy
    change DifferentiableAt ℝ (fun y => DGDS2 (y (.inl iT)) (y (.inl (.inl 0))) (y (.inl (.inl 1))) (y (.inl (.inl 2))) (y (.inr 0)) (y (.inr 1)) (y (.inr 2)) (raw y 2) (raw y 3) (raw y 7) (raw y 8)) y
    have d2 := raw_diff 2 y
    have q2 := hp.2.2.1
    have n2 := q2.ne'
    have d3 := raw_diff 3 y
    have q3 := hp.2.2.2.1
    have n3 := q3.ne'
    have d7 := raw_diff 7 y
    have q7 := hp.2.2.2.2.2.2.2.1
    have n7 := q7.ne'
    have d8 := raw_diff 8 y
    have q8 := hp.2.2.2.2.2.2.2.2.1
    have n8 := q8.ne'
    try simp only [DGDS2, zero_mul, mul_zero, add_zero, zero_add, sub_zero]
    ddq
  · have hp := pos y hy
    have h := c_DGDS2 (hl y u ((.inl iT))) (hl y u ((.inl iP))) (hl y u ((.inl (.inl 0)))) (hl y u ((.inl (.inl
        1)))) (hl y u ((.inl (.inl 2)))) (hl y u ((.inr 0))) (hl y u ((.inr 1))) (hl y u ((.inr
        2))) (raw_line2 y u) (by simpa only [zero_mul, add_zero] using hp.2.2.1) (raw_line3 y u)
        (by simpa only [zero_mul, add_zero] using hp.2.2.2.1) (raw_line7 y u) (by simpa only
        [zero_mul, add_zero] using hp.2.2.2.2.2.2.2.1) (raw_line8 y u) (by simpa only [zero_mul,
        add_zero] using hp.2.2.2.2.2.2.2.2.1)
    try simp only [zero_mul, add_zero] at h
    refine h.congr_deriv ?_
    rw [sum_var]; simp only [Fin.sum_univ_three]; rfl

lemma gr_dgdt (y : Var 3 3 → ℝ) (hy : Dom y) :
    Gr (fun y => (tables (raw y) y).dgdt) y ((tables (raw y) y).at2 (.inl iT)) := by
  refine Gr.of_lines ?_ fun u => ?_
  · have hp := pos y hy
    change DifferentiableAt ℝ (fun y => DGDT (raw y 0) (raw y 1) (raw y 2) (raw y 3) (raw y 4) (raw y 5) (raw y 6) (raw y 7) (raw y 8) (raw y 9)) y
    have d0 := raw_diff 0 y
    have q0 := hp.1
    have n0 := q0.ne'
    have d1 := raw_diff 1 y
    have q1 := hp.2.1
    have n1 := q1.ne'
    have d2 := raw_diff 2 y
    have q2 := hp.2.2.1
    have n2 := q2.ne'
    have d3 := raw_diff 3 y
    have q3 := hp.2.2.2.1
    have n3 := q3.ne'
    have d4 := raw_diff 4 y
    have q4 := hp.2.2.2.2.1
    have n4 := q4.ne'
    have d5 := raw_diff 5 y
    have q5 := hp.2.2.2.2.2.1
    have n5 := q5.ne'
    have d6 := raw_diff 6 y
    have q6 := hp.2.2.2.2.2.2.1
    have n6 := q6.ne'
    have d7 := raw_diff 7 y
    have q7 := hp.2.2.2.2.2.2.2.1
    have n7 := q7.ne'
    have d8 := raw_diff 8 y
    have q8 := hp.2.2.2.2.2.2.2.2.1
    have n8 := q8.ne'
    have d9 := raw_diff 9 y
    have q9 := hp.2.2.2.2.2.2.2.2.2
    have n9 := q9.ne'
    try simp only [S, DGDT, zero_mul, mul_zero, add_zero, zero_add, sub_zero]
    ddq
  · have hp := pos y hy
    have h := c_DGDT (hl y u ((.inl iT))) (hl y u ((.inl iP))) (hl y u ((.inl (.inl 0)))) (hl y u ((.inl (.inl
        1)))) (hl y u ((.inl (.inl 2)))) (hl y u ((.inr 0))) (hl y u ((.inr 1))) (hl y u ((.inr
        2))) (raw_line0 y u) (by simpa only [zero_mul, add_zero] using hp.1) (raw_line1 y u) (by
        simpa only [zero_mul, add_zero] using hp.2.1) (raw_line2 y u) (by simpa only [zero_mul,
        add_zero] using hp.2.2.1) (raw_line3 y u) (by simpa only [zero_mul, add_zero] using
        hp.2.2.2.1) (raw_line4 y u) (by simpa only [zero_mul, add_zero] using hp.2.2.2.2.1)
        (raw_line5 y u) (by simpa only [zero_mul, add_zero] using hp.2.2.2.2.2.1) (raw_line6 y u)
        (by simpa only [zero_mul, add_zero] using hp.2.2.2.2.2.2.1) (raw_line7 y u) (by simpa only
        [zero_mul, add_zero] using hp.2.2.2.2.2.2.2.1) (raw_line8 y u) (by simpa only [zero_mul,
        add_zero] using hp.2.2.2.2.2.2.2.2.1) (raw_line9 y u) (by simpa only [zero_mul, add_zero]
        using hp.2.2.2.2.2.2.2.2.2)
    try simp only [zero_mul, add_zero] at h
    refine h.congr_deriv ?_
    rw [sum_var]; simp only [Fin.sum_univ_three]; rfl

lemma gr_dgdp (y : Var 3 3 → ℝ) (hy : Dom y) :
    Gr (fun y => (tables (raw y) y).dgdp) y ((tables (raw y) y).at2 (.inl iP)) := by
  refine Gr.of_lines ?_ fun u => ?_
  · have hp := pos y hy
    change DifferentiableAt ℝ (fun y => DGDP) y
    try simp only [DGDP, zero_mul, mul_zero, add_zero, zero_add, sub_zero]
    ddq
  · have hp := pos y hy
    have h := c_DGDP (hl y u ((.inl iT))) (hl y u ((.inl iP))) (hl y u ((.inl (.inl 0)))) (hl y u ((.inl (.inl
        1)))) (hl y u ((.inl (.inl 2)))) (hl y u ((.inr 0))) (hl y u ((.inr 1))) (hl y u ((.inr
        2)))
    try simp only [zero_mul, add_zero] at h
    refine h.congr_deriv ?_
    rw [sum_var]; simp only [Fin.sum_univ_three]; rfl

lemma gr_d2gdr2_0_0 (y : Var 3 3 → ℝ) (hy : Dom y) :
    Gr (fun y => (tables (raw y) y).d2gdr2 0 0) y ((tables (raw y) y).at3 (.inl (.inl 0)) (.inl (.inl 0))) := by
  refine Gr.of_lines ?_ fun u => ?_
  · have hp := pos y hy
    change DifferentiableAt ℝ (fun y => D2GDR0R0 (y (.inl iT)) (raw y 0) (raw y 3) (raw y 4) (raw y 5) (raw y 8) (raw y 9)) y
    have d0 := raw_diff 0 y
    have q0 := hp.1
    have n0 := q0.ne'
    have d3 := raw_diff 3 y
    have q3 := hp.2.2.2.1
    have n3 := q3.ne'
    have d4 := raw_diff 4 y
    have q4 := hp.2.2.2.2.1
    have n4 := q4.ne'
    have d5 := raw_diff 5 y
    have q5 := hp.2.2.2.2.2.1
    have n5 := q5.ne'
    have d8 := raw_diff 8 y
    have q8 := hp.2.2.2.2.2.2.2.2.1
    have n8 := q8.ne'
    have d9 := raw_diff 9 y
    have q9 := hp.2.2.2.2.2.2.2.2.2
    have n9 := q9.ne'
    try simp only [D2GDR0R0, zero_mul, mul_zero, add_zero, zero_add, sub_zero]
    ddq
  · have hp := pos y hy
    have h := c_D2GDR0R0 (hl y u ((.inl iT))) (hl y u ((.inl iP))) (hl y u ((.inl (.inl 0)))) (hl y u ((.inl (.inl
        1)))) (hl y u ((.inl (.inl 2)))) (hl y u ((.inr 0))) (hl y u ((.inr 1))) (hl y u ((.inr
        2))) (raw_line0 y u) (by simpa only [zero_mul, add_zero] using hp.1) (raw_line3 y u) (by
        simpa only [zero_mul, add_zero] using hp.2.2.2.1) (raw_line4 y u) (by simpa only
        [zero_mul, add_zero] using hp.2.2.2.2.1) (raw_line5 y u) (by simpa only [zero_mul,
        add_zero] using hp.2.2.2.2.2.1) (raw_line8 y u) (by simpa only [zero_mul, add_zero] using
        hp.2.2.2.2.2.2.2.2.1) (raw_line9 y u) (by simpa only [zero_mul, add_zero] using
        hp.2.2.2.2.2.2.2.2.2)
    try simp only [zero_mul, add_zero] at h
    refine h.congr_deriv ?_
    rw [sum_var]; simp only [Fin.sum_univ_three]; rfl

lemma gr_d2gdr2_0_1 (y : Var 3 3 → ℝ) (hy : Dom y) :
    Gr (fun y => (tables (raw y) y).d2gdr2 0 1) y ((tables (raw y) y).at3 (.inl (.inl 0)) (.inl (.inl 1))) := by
  refine Gr.of_lines ?_ fun u => ?_
  · have hp := pos y hy
    change DifferentiableAt ℝ (fun y => D2GDR0R1 (y (.inl iT)) (raw y 3) (raw y 4) (raw y 8) (raw y 9)) y
    have d3 := raw_diff 3 y
    have q3 := hp.2.2.2.1
    have n3 := q3.ne'
    have d4 := raw_diff 4 y
    have q4 := hp.2.2.2.2.1
    have n4 := q4.ne'
    have d8 := raw_diff 8 y
    have q8 := hp.2.2.2.2.2.2.2.2.1
    have n8 := q8.ne'
    have d9 := raw_diff 9 y
    have q9 := hp.2.2.2.2.2.2.2.2.2
    have n9 := q9.ne'
    try simp only [D2GDR0R1, zero_mul, mul_zero, add_zero, zero_add, sub_zero]
    ddq
  · have hp := pos y hy
    have h := c_D2GDR0R1 (hl y u ((.inl iT))) (hl y u ((.inl iP))) (hl y u ((.inl (.inl 0)))) (hl y u ((.inl (.inl
        1)))) (hl y u ((.inl (.inl 2)))) (hl y u ((.inr 0))) (hl y u ((.inr 1))) (hl y u ((.inr
        2))) (raw_line3 y u) (by simpa only [zero_mul, add_zero] using hp.2.2.2.1) (raw_line4 y u)
        (by simpa only [zero_mul, add_zero] using hp.2.2.2.2.1) (raw_line8 y u) (by simpa only
        [zero_mul, add_zero] using hp.2.2.2.2.2.2.2.2.1) (raw_line9 y u) (by simpa only [zero_mul,
        add_zero] using hp.2.2.2.2.2.2.2.2.2)
    try simp only [zero_mul, add_zero] at h
    refine h.congr_deriv ?_
    rw [sum_var]; simp only [Fin.sum_univ_three]; rfl

lemma gr_d2gdr2_0_2 (y : Var 3 3 → ℝ) (hy : Dom y) :
    Gr (fun y => (tables (raw y) y).d2gdr2 0 2) y ((tables (raw y) y).at3 (.inl (.inl 0)) (.inl (.inl 2))) := by
  refine Gr.of_lines ?_ fun u => ?_
  · have hp := pos y hy
    change DifferentiableAt ℝ (fun y => D2GDR0R2 (y (.inl iT)) (raw y 3) (raw y 4) (raw y 8) (raw y 9)) y
    have d3 := raw_diff 3 y
    have q3 := hp.2.2.2.1
    have n3 := q3.ne'
    have d4 := raw_diff 4 y
    have q4 := hp.2.2.2.2.1
    have n4 := q4.ne'
    have d8 := raw_diff 8 y
    have q8 := hp.2.2.2.2.2.2.2.2.1
    have n8 := q8.ne'
    have d9 := raw_diff 9 y
    have q9 := hp.2.2.2.2.2.2.2.2.2
    have n9 := q9.ne'
    try simp only [D2GDR0R2, zero_mul, mul_zero, add_zero, zero_add, sub_zero]
    ddq
  · have hp := pos y hy
    have h := c_D2GDR0R2 (hl y u ((.inl iT))) (hl y u ((.inl iP))) (hl y u ((.inl (.inl 0)))) (hl y u ((.inl (.inl
        1)))) (hl y u ((.inl (.inl 2)))) (hl y u ((.inr 0))) (hl y u ((.inr 1))) (hl y u ((.inr
        2))) (raw_line3 y u) (by simpa only [zero_mul, add_zero] using hp.2.2.2.1) (raw_line4 y u)
        (by simpa only [zero_mul, add_zero] using hp.2.2.2.2.1) (raw_line8 y u) (by simpa only
        [zero_mul, add_zero] using hp.2.2.2.2.2.2.2.2.1) (raw_line9 y u) (by simpa only [zero_mul,
        add_zero] using hp.2.2.2.2.2.2.2.2.2)
    try simp only [zero_mul, add_zero] at h
    refine h.congr_deriv ?_
    rw [sum_var]; simp only [Fin.sum_univ_three]; rfl

lemma gr_d2gdrds_0_0 (y : Var 3 3 → ℝ) (hy : Dom y) :
    Gr (fun y => (tables (raw y) y).d2gdrds 0 0) y ((tables (raw y) y).at3 (.inl (.inl 0)) (.inr 0)) := by
  refine Gr.of_lines ?_ fun u => ?_
  · have hp := pos y hy
    change DifferentiableAt ℝ (fun y => D2GDR0S0 (y (.inl iT)) (y (.inr 0)) (raw y 0) (raw y 3) (raw y 5) (raw y 8)) y
    have d0 := raw_diff 0 y
    have q0 := hp.1
    have n0 := q0.ne'
    have d3 := raw_diff 3 y
    have q3 := hp.2.2.2.1
    have n3 := q3.ne'
    have d5 := raw_diff 5 y
    have q5 := hp.2.2.2.2.2.1
    have n5 := q5.ne'
    have d8 := raw_diff 8 y
    have q8 := hp.2.2.2.2.2.2.2.2.1
    have n8 := q8.ne'
    try simp only [D2GDR0S0, zero_mul, mul_zero, add_zero, zero_add, sub_zero]
    ddq
  · have hp := pos y hy
    have h := c_D2GDR0S0 (hl y u ((.inl iT))) (hl y u ((.inl iP))) (hl y u ((.inl (.inl 0)))) (hl y u ((.inl (.inl
        1)))) (hl y u ((.inl (.inl 2)))) (hl y u ((.inr 0))) (hl y u ((.inr 1))) (hl y u ((.inr
        2))) (raw_line0 y u) (by simpa only [zero_mul, add_zero] using hp.1) (raw_line3 y u) (by
        simpa only [zero_mul, add_zero] using hp.2.2.2.1) (raw_line5 y u) (by simpa only
        [zero_mul, add_zero] using hp.2.2.2.2.2.1) (raw_line8 y u) (by simpa only [zero_mul,
        add_zero] using hp.2.2.2.2.2.2.2.2.1)
    try simp only [zero_mul, add_zero] at h
    refine h.congr_deriv ?_
    rw [sum_var]; simp only [Fin.sum_univ_three]; rfl

lemma gr_d2gdrds_0_1 (y : Var 3 3 → ℝ) (hy : Dom y) :
    Gr (fun y => (tables (raw y) y).d2gdrds 0 1) y ((tables (raw y) y).at3 (.inl (.inl 0)) (.inr 1)) := by
  refine Gr.of_lines ?_ fun u => ?_
  · have hp := pos y hy
    change DifferentiableAt ℝ (fun y => D2GDR0S1 (y (.inl iT)) (y (.inr 1)) (raw y 3) (raw y 8)) y
    have d3 := raw_diff 3 y
    have q3 := hp.2.2.2.1
    have n3 := q3.ne'
    have d8 := raw_diff 8 y
    have q8 := hp.2.2.2.2.2.2.2.2.1
    have n8 := q8.ne'
    try simp only [D2GDR0S1, zero_mul, mul_zero, add_zero, zero_add, sub_zero]
    ddq
  · have hp := pos y hy
    have h := c_D2GDR0S1 (hl y u ((.inl iT))) (hl y u ((.inl iP))) (hl y u ((.inl (.inl 0)))) (hl y u ((.inl (.inl
        1)))) (hl y u ((.inl (.inl 2)))) (hl y u ((.inr 0))) (hl y u ((.inr 1))) (hl y u ((.inr
        2))) (raw_line3 y u) (by simpa only [zero_mul, add_zero] using hp.2.2.2.1) (raw_line8 y u)
        (by simpa only [zero_mul, add_zero] using hp.2.2.2.2.2.2.2.2.1)
    try simp only [zero_mul, add_zero] at h
    refine h.congr_deriv ?_
    rw [sum_var]; simp only [Fin.sum_univ_three]; rfl

lemma gr_d2gdrds_0_2 (y : Var 3 3 → ℝ) (hy : Dom y) :
    Gr (fun y => (tables (raw y) y).d2gdrds 0 2) y ((tables (raw y) y).at3 (.inl (.inl 0)) (.inr 2)) := by
  refine Gr.of_lines ?_ fun u => ?_
  · have hp := pos y hy
    change DifferentiableAt ℝ (fun y => D2GDR0S2 (y (.inl iT)) (y (.inr 2)) (raw y 3) (raw y 8)) y
    have d3 := raw_diff 3 y
    have q3 := hp.2.2.2.1
    have n3 := q3.ne'
    have d8 := raw_diff 8 y
    have q8 := hp.2.2.2.2.2.2.2.2.1
    have n8 := q8.ne'
    try simp only [D2GDR0S2, zero_mul, mul_zero, add_zero, zero_add, sub_zero]
    ddq
  · have hp := pos y hy
    have h := c_D2GDR0S2 (hl y u ((.inl iT))) (hl y u ((.inl iP))) (hl y u ((.inl (.inl 0)))) (hl y u ((.inl (.inl
        1)))) (hl y u ((.inl (.inl 2)))) (hl y u ((.inr 0))) (hl y u ((.inr 1))) (hl y u ((.inr
        2))) (raw_line3 y u) (by simpa only [zero_mul, add_zero] using hp.2.2.2.1) (raw_line8 y u)
        (by simpa only [zero_mul, add_zero] using hp.2.2.2.2.2.2.2.2.1)
    try simp only [zero_mul, add_zero] at h
    refine h.congr_deriv ?_
    rw [sum_var]; simp only [Fin.sum_univ_three]; rfl

lemma gr_d2gdrdt_0 (y : Var 3 3 → ℝ) (hy : Dom y) :
    Gr (fun y => (tables (raw y) y).d2gdrdt 0) y ((tables (raw y) y).at3 (.inl (.inl 0)) (.inl iT)) := by
  refine Gr.of_lines ?_ fun u => ?_
  · have hp := pos y hy
    change DifferentiableAt ℝ (fun y => D2GDR0DT (raw y 0) (raw y 3) (raw y 4) (raw y 5) (raw y 8) (raw y 9)) y
    have d0 := raw_diff 0 y
    have q0 := hp.1
    have n0 := q0.ne'
    have d3 := raw_diff 3 y
    have q3 := hp.2.2.2.1
    have n3 := q3.ne'
    have d4 := raw_diff 4 y
    have q4 := hp.2.2.2.2.1
    have n4 := q4.ne'
    have d5 := raw_diff 5 y
    have q5 := hp.2.2.2.2.2.1
    have n5 := q5.ne'
    have d8 := raw_diff 8 y
    have q8 := hp.2.2.2.2.2.2.2.2.1
    have n8 := q8.ne'
    have d9 := raw_diff 9 y
    have q9 := hp.2.2.2.2.2.2.2.2.2
    have n9 := q9.ne'
    try simp only [D2GDR0DT, zero_mul, mul_zero, add_zero, zero_add, sub_zero]
    ddq
  · have hp := pos y hy
    have h := c_D2GDR0DT (hl y u ((.inl iT))) (hl y u ((.inl iP))) (hl y u ((.inl (.inl 0)))) (hl y u ((.inl (.inl
        1)))) (hl y u ((.inl (.inl 2)))) (hl y u ((.inr 0))) (hl y u ((.inr 1))) (hl y u ((.inr
        2))) (raw_line0 y u) (by simpa only [zero_mul, add_zero] using hp.1) (raw_line3 y u) (by
        simpa only [zero_mul, add_zero] using hp.2.2.2.1) (raw_line4 y u) (by simpa only
        [zero_mul, add_zero] using hp.2.2.2.2.1) (raw_line5 y u) (by simpa only [zero_mul,
        add_zero] using hp.2.2.2.2.2.1) (raw_line8 y u) (by simpa only [zero_mul, add_zero] using
        hp.2.2.2.2.2.2.2.2.1) (raw_line9 y u) (by simpa only [zero_mul, add_zero] using
        hp.2.2.2.2.2.2.2.2.2)
    try simp only [zero_mul, add_zero] at h
    refine h.congr_deriv ?_
    rw [sum_var]; simp only [Fin.sum_univ_three]; rfl

lemma gr_d2gdrdp_0 (y : Var 3 3 → ℝ) (hy : Dom y) :
    Gr (fun y => (tables (raw y) y).d2gdrdp 0) y ((tables (raw y) y).at3 (.inl (.inl 0)) (.inl iP)) := by
  refine Gr.of_lines ?_ fun u => ?_
  · have hp := pos y hy
    change DifferentiableAt ℝ (fun y => D2GDR0DP) y
    try simp only [D2GDR0DP, zero_mul, mul_zero, add_zero, zero_add, sub_zero]
    ddq
  · have hp := pos y hy
    have h := c_D2GDR0DP (hl y u ((.inl iT))) (hl y u ((.inl iP))) (hl y u ((.inl (.inl 0)))) (hl y u ((.inl (.inl
        1)))) (hl y u ((.inl (.inl 2)))) (hl y u ((.inr 0))) (hl y u ((.inr 1))) (hl y u ((.inr
        2)))
    try simp only [zero_mul, add_zero] at h
    refine h.congr_deriv ?_
    rw [sum_var]; simp only [Fin.sum_univ_three]; rfl

lemma gr_d2gdr2_1_1 (y : Var 3 3 → ℝ) (hy : Dom y) :
    Gr (fun y => (tables (raw y) y).d2gdr2 1 1) y ((tables (raw y) y).at3 (.inl (.inl 1)) (.inl (.inl 1))) := by
  refine Gr.of_lines ?_ fun u => ?_
  · have hp := pos y hy
    change DifferentiableAt ℝ (fun y => D2GDR1R1 (y (.inl iT)) (raw y 1) (raw y 3) (raw y 4) (raw y 6) (raw y 8) (raw y 9)) y
    have d1 := raw_diff 1 y
    have q1 := hp.2.1
    have n1 := q1.ne'
    have d3 := raw_diff 3 y
    have q3 := hp.2.2.2.1
    have n3 := q3.ne'
    have d4 := raw_diff 4 y
    have q4 := hp.2.2.2.2.1
    have n4 := q4.ne'
    have d6 := raw_diff 6 y
    have q6 := hp.2.2.2.2.2.2.1
    have n6 := q6.ne'
    have d8 := raw_diff 8 y
    have q8 := hp.2.2.2.2.2.2.2.2.1
    have n8 := q8.ne'
    have d9 := raw_diff 9 y
    have q9 := hp.2.2.2.2.2.2.2.2.2
    have n9 := q9.ne'
    try simp only [D2GDR1R1, zero_mul, mul_zero, add_zero, zero_add, sub_zero]
    ddq
  · have hp := pos y hy
    have h := c_D2GDR1R1 (hl y u ((.inl iT))) (hl y u ((.inl iP))) (hl y u ((.inl (.inl 0)))) (hl y u ((.inl (.inl
        1)))) (hl y u ((.inl (.inl 2)))) (hl y u ((.inr 0))) (hl y u ((.inr 1))) (hl y u ((.inr
        2))) (raw_line1 y u) (by simpa only [zero_mul, add_zero] using hp.2.1) (raw_line3 y u) (by
        simpa only [zero_mul, add_zero] using hp.2.2.2.1) (raw_line4 y u) (by simpa only
        [zero_mul, add_zero] using hp.2.2.2.2.1) (raw_line6 y u) (by simpa only [zero_mul,
        add_zero] using hp.2.2.2.2.2.2.1) (raw_line8 y u) (by simpa only [zero_mul, add_zero]
        using hp.2.2.2.2.2.2.2.2.1) (raw_line9 y u) (by simpa only [zero_mul, add_zero] using
        hp.2.2.2.2.2.2.2.2.2)
    try simp only [zero_mul, add_zero] at h
    refine h.congr_deriv ?_
    rw [sum_var]; simp only [Fin.sum_univ_three]; rfl

lemma gr_d2gdr2_1_2 (y : Var 3 3 → ℝ) (hy : Dom y) :
    Gr (fun y => (tables (raw y) y).d2gdr2 1 2) y ((tables (raw y) y).at3 (.inl (.inl 1)) (.inl (.inl 2))) := by
  refine Gr.of_lines ?_ fun u => ?_
  · have hp := pos y hy
    change DifferentiableAt ℝ (fun y => D2GDR1R2 (y (.inl iT)) (raw y 3) (raw y 4) (raw y 8) (raw y 9)) y
    have d3 := raw_diff 3 y
    have q3 := hp.2.2.2.1
    have n3 := q3.ne'
    have d4 := raw_diff 4 y
    have q4 := hp.2.2.2.2.1
    have n4 := q4.ne'
    have d8 := raw_diff 8 y
    have q8 := hp.2.2.2.2.2.2.2.2.1
    have n8 := q8.ne'
    have d9 := raw_diff 9 y
    have q9 := hp.2.2.2.2.2.2.2.2.2
    have n9 := q9.ne'
    try simp only [D2GDR1R2, zero_mul, mul_zero, add_zero, zero_add, sub_zero]
    ddq
  · have hp := pos y hy
    have h := c_D2GDR1R2 (hl y u ((.inl iT))) (hl y u ((.inl iP))) (hl y u ((.inl (.inl 0)))) (hl y u ((.inl (.inl
        1)))) (hl y u ((.inl (.inl 2)))) (hl y u ((.inr 0))) (hl y u ((.inr 1))) (hl y u ((.inr
        2))) (raw_line3 y u) (by simpa only [zero_mul, add_zero] using hp.2.2.2.1) (raw_line4 y u)
        (by simpa only [zero_mul, add_zero] using hp.2.2.2.2.1) (raw_line8 y u) (by simpa only
        [zero_mul, add_zero] using hp.2.2.2.2.2.2.2.2.1) (raw_line9 y u) (by simpa only [zero_mul,
        add_zero] using hp.2.2.2.2.2.2.2.2.2)
    try simp only [zero_mul, add_zero] at h
    refine h.congr_deriv ?_
    rw [sum_var]; simp only [Fin.sum_univ_three]; rfl

lemma gr_d2gdrds_1_0 (y : Var 3 3 → ℝ) (hy : Dom y) :
    Gr (fun y => (tables (raw y) y).d2gdrds 1 0) y ((tables (raw y) y).at3 (.inl (.inl 1)) (.inr 0)) := by
  refine Gr.of_lines ?_ fun u => ?_
  · have hp := pos y hy
    change DifferentiableAt ℝ (fun y => D2GDR1S0 (y (.inl iT)) (y (.inr 0)) (raw y 3) (raw y 8)) y
    have d3 := raw_diff 3 y
    have q3 := hp.2.2.2.1
    have n3 := q3.ne'
    have d8 := raw_diff 8 y
    have q8 := hp.2.2.2.2.2.2.2.2.1
    have n8 := q8.ne'
    try simp only [D2GDR1S0, zero_mul, mul_zero, add_zero, zero_add, sub_zero]
    ddq
  · have hp := pos y hy
    have h := c_D2GDR1S0 (hl y u ((.inl iT))) (hl y u ((.inl iP))) (hl y u ((.inl (.inl 0)))) (hl y u ((.inl (.inl
        1)))) (hl y u ((.inl (.inl 2)))) (hl y u ((.inr 0))) (hl y u ((.inr 1))) (hl y u ((.inr
        2))) (raw_line3 y u) (by simpa only [zero_mul, add_zero] using hp.2.2.2.1) (raw_line8 y u)
        (by simpa only [zero_mul, add_zero] using hp.2.2.2.2.2.2.2.2.1)
    try simp only [zero_mul, add_zero] at h
    refine h.congr_deriv ?_
    rw [sum_var]; simp only [Fin.sum_univ_three]; rfl

lemma gr_d2gdrds_1_1 (y : Var 3 3 → ℝ) (hy : Dom y) :
    Gr (fun y => (tables (raw y) y).d2gdrds 1 1) y ((tables (raw y) y).at3 (.inl (.inl 1)) (.inr 1)) := by
  refine Gr.of_lines ?_ fun u => ?_
  · have hp := pos y hy
    change DifferentiableAt ℝ (fun y => D2GDR1S1 (y (.inl iT)) (y (.inr 1)) (raw y 1) (raw y 3) (raw y 6) (raw y 8)) y
    have d1 := raw_diff 1 y
    have q1 := hp.2.1
    have n1 := q1.ne'
    have d3 := raw_diff 3 y
    have q3 := hp.2.2.2.1
    have n3 := q3.ne'
    have d6 := raw_diff 6 y
    have q6 := hp.2.2.2.2.2.2.1
    have n6 := q6.ne'
    have d8 := raw_diff 8 y
    have q8 := hp.2.2.2.2.2.2.2.2.1
    have n8 := q8.ne'
    try simp only [D2GDR1S1, zero_mul, mul_zero, add_zero, zero_add, sub_zero]
    ddq
  · have hp := pos y hy
    have h := c_D2GDR1S1 (hl y u ((.inl iT))) (hl y u ((.inl iP))) (hl y u ((.inl (.inl 0)))) (hl y u ((.inl (.inl
        1)))) (hl y u ((.inl (.inl 2)))) (hl y u ((.inr 0))) (hl y u ((.inr 1))) (hl y u ((.inr
        2))) (raw_line1 y u) (by simpa only [zero_mul, add_zero] using hp.2.1) (raw_line3 y u) (by
        simpa only [zero_mul, add_zero] using hp.2.2.2.1) (raw_line6 y u) (by simpa only
        [zero_mul, add_zero] using hp.2.2.2.2.2.2.1) (raw_line8 y u) (by simpa only [zero_mul,
        add_zero] using hp.2.2.2.2.2.2.2.2.1)
    try simp only [zero_mul, add_zero] at h
    refine h.congr_deriv ?_
    rw [sum_var]; simp only [Fin.sum_univ_three]; rfl

lemma gr_d2gdrds_1_2 (y : Var 3 3 → ℝ) (hy : Dom y) :
    Gr (fun y => (tables (raw y) y).d2gdrds 1 2) y ((tables (raw y) y).at3 (.inl (.inl 1)) (.inr 2)) := by
  refine Gr.of_lines ?_ fun u => ?_
  · have hp := pos y hy
    change DifferentiableAt ℝ (fun y => D2GDR1S2 (y (.inl iT)) (y (.inr 2)) (raw y 3) (raw y 8)) y
    have d3 := raw_diff 3 y
    have q3 := hp.2.2.2.1
    have n3 := q3.ne'
    have d8 := raw_diff 8 y
    have q8 := hp.2.2.2.2.2.2.2.2.1
    have n8 := q8.ne'
    try simp only [D2GDR1S2, zero_mul, mul_zero, add_zero, zero_add, sub_zero]
    ddq
  · have hp := pos y hy
    have h := c_D2GDR1S2 (hl y u ((.inl iT))) (hl y u ((.inl iP))) (hl y u ((.inl (.inl 0)))) (hl y u ((.inl (.inl
        1)))) (hl y u ((.inl (.inl 2)))) (hl y u ((.inr 0))) (hl y u ((.inr 1))) (hl y u ((.inr
        2))) (raw_line3 y u) (by simpa only [zero_mul, add_zero] using hp.2.2.2.1) (raw_line8 y u)
        (by simpa only [zero_mul, add_zero] using hp.2.2.2.2.2.2.2.2.1)
    try simp only [zero_mul, add_zero] at h
    refine h.congr_deriv ?_
    rw [sum_var]; simp only [Fin.sum_univ_three]; rfl

lemma gr_d2gdrdt_1 (y : Var 3 3 → ℝ) (hy : Dom y) :
    Gr (fun y => (tables (raw y) y).d2gdrdt 1) y ((tables (raw y) y).at3 (.inl (.inl 1)) (.inl iT)) := by
  refine Gr.of_lines ?_ fun u => ?_
  · have hp := pos y hy
    change DifferentiableAt ℝ (fun y => D2GDR1DT (raw y 1) (raw y 3) (raw y 4) (raw y 6) (raw y 8) (raw y 9)) y
    have d1 := raw_diff 1 y
    have q1 := hp.2.1
    have n1 := q1.ne'
    have d3 := raw_diff 3 y
    have q3 := hp.2.2.2.1
    have n3 := q3.ne'
    have d4 := raw_diff 4 y
    have q4 := hp.2.2.2.2.1
    have n4 := q4.ne'
    have d6 := raw_diff 6 y
    have q6 := hp.2.2.2.2.2.2.1
    have n6 := q6.ne'
    have d8 := raw_diff 8 y
    have q8 := hp.2.2.2.2.2.2.2.2.1
    have n8 := q8.ne'
    have d9 := raw_diff 9 y
    have q9 := hp.2.2.2.2.2.2.2.2.2
    have n9 := q9.ne'
    try simp only [D2GDR1DT, zero_mul, mul_zero, add_zero, zero_add, sub_zero]
    ddq
  · have hp := pos y hy
    have h := c_D2GDR1DT (hl y u ((.inl iT))) (hl y u ((.inl iP))) (hl y u ((.inl (.inl 0)))) (hl y u ((.inl (.inl
        1)))) (hl y u ((.inl (.inl 2)))) (hl y u ((.inr 0))) (hl y u ((.inr 1))) (hl y u ((.inr
        2))) (raw_line1 y u) (by simpa only [zero_mul, add_zero] using hp.2.1) (raw_line3 y u) (by
        simpa only [zero_mul, add_zero] using hp.2.2.2.1) (raw_line4 y u) (by simpa only
        [zero_mul, add_zero] using hp.2.2.2.2.1) (raw_line6 y u) (by simpa only [zero_mul,
        add_zero] using hp.2.2.2.2.2.2.1) (raw_line8 y u) (by simpa only [zero_mul, add_zero]
        using hp.2.2.2.2.2.2.2.2.1) (raw_line9 y u) (by simpa only [zero_mul, add_zero] using
        hp.2.2.2.2.2.2.2.2.2)
    try simp only [zero_mul, add_zero] at h
    refine h.congr_deriv ?_
    rw [sum_var]; simp only [Fin.sum_univ_three]; rfl

lemma gr_d2gdrdp_1 (y : Var 3 3 → ℝ) (hy : Dom y) :
    Gr (fun y => (tables (raw y) y).d2gdrdp 1) y ((tables (raw y) y).at3 (.inl (.inl 1)) (.inl iP)) := by
  refine Gr.of_lines ?_ fun u => ?_
  · have hp := pos y hy
    change DifferentiableAt ℝ (fun y => D2GDR1DP) y
    try simp only [D2GDR1DP, zero_mul, mul_zero, add_zero, zero_add, sub_zero]
    ddq
  · have hp := pos y hy
    have h := c_D2GDR1DP (hl y u ((.inl iT))) (hl y u ((.inl iP))) (hl y u ((.inl (.inl 0)))) (hl y u ((.inl (.inl
        1)))) (hl y u ((.inl (.inl 2)))) (hl y u ((.inr 0))) (hl y u ((.inr 1))) (hl y u ((.inr
        2)))
    try simp only [zero_mul, add_zero] at h
    refine h.congr_deriv ?_
    rw [sum_var]; simp only [Fin.sum_univ_three]; rfl

lemma gr_d2gdr2_2_2 (y : Var 3 3 → ℝ) (hy : Dom y) :
    Gr (fun y => (tables (raw y) y).d2gdr2 2 2) y ((tables (raw y) y).at3 (.inl (.inl 2)) (.inl (.inl 2))) := by
  refine Gr.of_lines ?_ fun u => ?_
  · have hp := pos y hy
    change DifferentiableAt ℝ (fun y => D2GDR2R2 (y (.inl iT)) (raw y 2) (raw y 3) (raw y 4) (raw y 7) (raw y 8) (raw y 9)) y
    have d2 := raw_diff 2 y
    have q2 := hp.2.2.1
    have n2 := q2.ne'
    have d3 := raw_diff 3 y
    have q3 := hp.2.2.2.1
    have n3 := q3.ne'
    have d4 := raw_diff 4 y
    have q4 := hp.2.2.2.2.1
    have n4 := q4.ne'
    have d7 := raw_diff 7 y
    have q7 := hp.2.2.2.2.2.2.2.1
    have n7 := q7.ne'
    have d8 := raw_diff 8 y
    have q8 := hp.2.2.2.2.2.2.2.2.1
    have n8 := q8.ne'
    have d9 := raw_diff 9 y
    have q9 := hp.2.2.2.2.2.2.2.2.2
    have n9 := q9.ne'
    try simp only [D2GDR2R2, zero_mul, mul_zero, add_zero, zero_add, sub_zero]
    ddq
  · have hp := pos y hy
    have h := c_D2GDR2R2 (hl y u ((.inl iT))) (hl y u ((.inl iP))) (hl y u ((.inl (.inl 0)))) (hl y u ((.inl (.inl
        1)))) (hl y u ((.inl (.inl 2)))) (hl y u ((.inr 0))) (hl y u ((.inr 1))) (hl y u ((.inr
        2))) (raw_line2 y u) (by simpa only [zero_mul, add_zero] using hp.2.2.1) (raw_line3 y u)
        (by simpa only [zero_mul, add_zero] using hp.2.2.2.1) (raw_line4 y u) (by simpa only
        [zero_mul, add_zero] using hp.2.2.2.2.1) (raw_line7 y u) (by simpa only [zero_mul,
        add_zero] using hp.2.2.2.2.2.2.2.1) (raw_line8 y u) (by simpa only [zero_mul, add_zero]
        using hp.2.2.2.2.2.2.2.2.1) (raw_line9 y u) (by simpa only [zero_mul, add_zero] using
        hp.2.2.2.2.2.2.2.2.2)
    try simp only [zero_mul, add_zero] at h
    refine h.congr_deriv ?_
    rw [sum_var]; simp only [Fin.sum_univ_three]; rfl

lemma gr_d2gdrds_2_0 (y : Var 3 3 → ℝ) (hy : Dom y) :
    Gr (fun y => (tables (raw y) y).d2gdrds 2 0) y ((tables (raw y) y).at3 (.inl (.inl 2)) (.inr 0)) := by
  refine Gr.of_lines ?_ fun u => ?_
  · have hp := pos y hy
    change DifferentiableAt ℝ (fun y => D2GDR2S0 (y (.inl iT)) (y (.inr 0)) (raw y 3) (raw y 8)) y
    have d3 := raw_diff 3 y
    have q3 := hp.2.2.2.1
    have n3 := q3.ne'
    have d8 := raw_diff 8 y
    have q8 := hp.2.2.2.2.2.2.2.2.1
    have n8 := q8.ne'
    try simp only [D2GDR2S0, zero_mul, mul_zero, add_zero, zero_add, sub_zero]
    ddq
  · have hp := pos y hy
    have h := c_D2GDR2S0 (hl y u ((.inl iT))) (hl y u ((.inl iP))) (hl y u ((.inl (.inl 0)))) (hl y u ((.inl (.inl
        1)))) (hl y u ((.inl (.inl 2)))) (hl y u ((.inr 0))) (hl y u ((.inr 1))) (hl y u ((.inr
        2))) (raw_line3 y u) (by simpa only [zero_mul, add_zero] using hp.2.2.2.1) (raw_line8 y u)
        (by simpa only [zero_mul, add_zero] using hp.2.2.2.2.2.2.2.2.1)
    try simp only [zero_mul, add_zero] at h
    refine h.congr_deriv ?_
    rw [sum_var]; simp only [Fin.sum_univ_three]; rfl

lemma gr_d2gdrds_2_1 (y : Var 3 3 → ℝ) (hy : Dom y) :
    Gr (fun y => (tables (raw y) y).d2gdrds 2 1) y ((tables (raw y) y).at3 (.inl (.inl 2)) (.inr 1)) := by
  refine Gr.of_lines ?_ fun u => ?_
  · have hp := pos y hy
    change DifferentiableAt ℝ (fun y => D2GDR2S1 (y (.inl iT)) (y (.inr 1)) (raw y 3) (raw y 8)) y
    have d3 := raw_diff 3 y
    have q3 := hp.2.2.2.1
    have n3 := q3.ne'
    have d8 := raw_diff 8 y
    have q8 := hp.2.2.2.2.2.2.2.2.1
    have n8 := q8.ne'
    try simp only [D2GDR2S1, zero_mul, mul_zero, add_zero, zero_add, sub_zero]
    ddq
  · have hp := pos y hy
    have h := c_D2GDR2S1 (hl y u ((.inl iT))) (hl y u ((.inl iP))) (hl y u ((.inl (.inl 0)))) (hl y u ((.inl (.inl
        1)))) (hl y u ((.inl (.inl 2)))) (hl y u ((.inr 0))) (hl y u ((.inr 1))) (hl y u ((.inr
        2))) (raw_line3 y u) (by simpa only [zero_mul, add_zero] using hp.2.2.2.1) (raw_line8 y u)
        (by simpa only [zero_mul, add_zero] using hp.2.2.2.2.2.2.2.2.1)
    try simp only [zero_mul, add_zero] at h
    refine h.congr_deriv ?_
    rw [sum_var]; simp only [Fin.sum_univ_three]; rfl

lemma gr_d2gdrds_2_2 (y : Var 3 3 → ℝ) (hy : Dom y) :
    Gr (fun y => (tables (raw y) y).d2gdrds 2 2) y ((tables (raw y) y).at3 (.inl (.inl 2)) (.inr 2)) := by
  refine Gr.of_lines ?_ fun u => ?_
  · have hp := pos y hy
    change DifferentiableAt ℝ (fun y => D2GDR2S2 (y (.inl iT)) (y (.inr 2)) (raw y 2) (raw y 3) (raw y 7) (raw y 8)) y
    have d2 := raw_diff 2 y
    have q2 := hp.2.2.1
    have n2 := q2.ne'
    have d3 := raw_diff 3 y
    have q3 := hp.2.2.2.1
    have n3 := q3.ne'
    have d7 := raw_diff 7 y
    have q7 := hp.2.2.2.2.2.2.2.1
    have n7 := q7.ne'
    have d8 := raw_diff 8 y
    have q8 := hp.2.2.2.2.2.2.2.2.1
    have n8 := q8.ne'
    try simp only [D2GDR2S2, zero_mul, mul_zero, add_zero, zero_add, sub_zero]
    ddq
  · have hp := pos y hy
    have h := c_D2GDR2S2 (hl y u ((.inl iT))) (hl y u ((.inl iP))) (hl y u ((.inl (.inl 0)))) (hl y u ((.inl (.inl
        1)))) (hl y u ((.inl (.inl 2)))) (hl y u ((.inr 0))) (hl y u ((.inr 1))) (hl y u ((.inr
        2))) (raw_line2 y u) (by simpa only [zero_mul, add_zero] using hp.2.2.1) (raw_line3 y u)
        (by simpa only [zero_mul, add_zero] using hp.2.2.2.1) (raw_line7 y u) (by simpa only
        [zero_mul, add_zero] using hp.2.2.2.2.2.2.2.1) (raw_line8 y u) (by simpa only [zero_mul,
        add_zero] using hp.2.2.2.2.2.2.2.2.1)
    try simp only [zero_mul, add_zero] at h
    refine h.congr_deriv ?_
    rw [sum_var]; simp only [Fin.sum_univ_three]; rfl

lemma gr_d2gdrdt_2 (y : Var 3 3 → ℝ) (hy : Dom y) :
    Gr (fun y => (tables (raw y) y).d2gdrdt 2) y ((tables (raw y) y).at3 (.inl (.inl 2)) (.inl iT)) := by
  refine Gr.of_lines ?_ fun u => ?_
  · have hp := pos y hy
    change DifferentiableAt ℝ (fun y => D2GDR2DT (raw y 2) (raw y 3) (raw y 4) (raw y 7) (raw y 8) (raw y 9)) y
    have d2 := raw_diff 2 y
    have q2 := hp.2.2.1
    have n2 := q2.ne'
    have d3 := raw_diff 3 y
    have q3 := hp.2.2.2.1
    have n3 := q3.ne'
    have d4 := raw_diff 4 y
    have q4 := hp.2.2.2.2.1
    have n4 := q4.ne'
    have d7 := raw_diff 7 y
    have q7 := hp.2.2.2.2.2.2.2.1
    have n7 := q7.ne'
    have d8 := raw_diff 8 y
    have q8 := hp.2.2.2.2.2.2.2.2.1
    have n8 := q8.ne'
    have d9 := raw_diff 9 y
    have q9 := hp.2.2.2.2.2.2.2.2.2
    have n9 := q9.ne'
    try simp only [D2GDR2DT, zero_mul, mul_zero, add_zero, zero_add, sub_zero]
    ddq
  · have hp := pos y hy
    have h := c_D2GDR2DT (hl y u ((.inl iT))) (hl y u ((.inl iP))) (hl y u ((.inl (.inl 0)))) (hl y u ((.inl (.inl
        1)))) (hl y u ((.inl (.inl 2)))) (hl y u ((.inr 0))) (hl y u ((.inr 1))) (hl y u ((.inr
        2))) (raw_line2 y u) (by simpa only [zero_mul, add_zero] using hp.2.2.1) (raw_line3 y u)
        (by simpa only [zero_mul, add_zero] using hp.2.2.2.1) (raw_line4 y u) (by simpa only
        [zero_mul, add_zero] using hp.2.2.2.2.1) (raw_line7 y u) (by simpa only [zero_mul,
        add_zero] using hp.2.2.2.2.2.2.2.1) (raw_line8 y u) (by simpa only [zero_mul, add_zero]
        using hp.2.2.2.2.2.2.2.2.1) (raw_line9 y u) (by simpa only [zero_mul, add_zero] using
        hp.2.2.2.2.2.2.2.2.2)
    try simp only [zero_mul, add_zero] at h
    refine h.congr_deriv ?_
    rw [sum_var]; simp only [Fin.sum_univ_three]; rfl

lemma gr_d2gdrdp_2 (y : Var 3 3 → ℝ) (hy : Dom y) :
    Gr (fun y => (tables (raw y) y).d2gdrdp 2) y ((tables (raw y) y).at3 (.inl (.inl 2)) (.inl iP)) := by
  refine Gr.of_lines ?_ fun u => ?_
  · have hp := pos y hy
    change DifferentiableAt ℝ (fun y => D2GDR2DP) y
    try simp only [D2GDR2DP, zero_mul, mul_zero, add_zero, zero_add, sub_zero]
    ddq
  · have hp := pos y hy
    have h := c_D2GDR2DP (hl y u ((.inl iT))) (hl y u ((.inl iP))) (hl y u ((.inl (.inl 0)))) (hl y u ((.inl (.inl
        1)))) (hl y u ((.inl (.inl 2)))) (hl y u ((.inr 0))) (hl y u ((.inr 1))) (hl y u ((.inr
        2)))
    try simp only [zero_mul, add_zero] at h
    refine h.congr_deriv ?_
    rw [sum_var]; simp only [Fin.sum_univ_three]; rfl

lemma gr_d2gds2_0_0 (y : Var 3 3 → ℝ) (hy : Dom y) :
    Gr (fun y => (tables (raw y) y).d2gds2 0 0) y ((tables (raw y) y).at3 (.inr 0) (.inr 0)) := by
  refine Gr.of_lines ?_ fun u => ?_
  · have hp := pos y hy
    change DifferentiableAt ℝ (fun y => D2GDS0S0 (y (.inl iT)) (y (.inl (.inl 0))) (y (.inl (.inl 1))) (y (.inl (.inl 2))) (raw y 0) (raw y 3) (raw y 5) (raw y 8)) y
    have d0 := raw_diff 0 y
    have q0 := hp.1
    have n0 := q0.ne'
    have d3 := raw_diff 3 y
    have q3 := hp.2.2.2.1
    have n3 := q3.ne'
    have d5 := raw_diff 5 y
    have q5 := hp.2.2.2.2.2.1
    have n5 := q5.ne'
    have d8 := raw_diff 8 y
    have q8 := hp.2.2.2.2.2.2.2.2.1
    have n8 := q8.ne'
    try simp only [D2GDS0S0, zero_mul, mul_zero, add_zero, zero_add, sub_zero]
    ddq
  · have hp := pos y hy
    have h := c_D2GDS0S0 (hl y u ((.inl iT))) (hl y u ((.inl iP))) (hl y u ((.inl (.inl 0)))) (hl y u ((.inl (.inl
        1)))) (hl y u ((.inl (.inl 2)))) (hl y u ((.inr 0))) (hl y u ((.inr 1))) (hl y u ((.inr
        2))) (raw_line0 y u) (by simpa only [zero_mul, add_zero] using hp.1) (raw_line3 y u) (by
        simpa only [zero_mul, add_zero] using hp.2.2.2.1) (raw_line5 y u) (by simpa only
        [zero_mul, add_zero] using hp.2.2.2.2.2.1) (raw_line8 y u) (by simpa only [zero_mul,
        add_zero] using hp.2.2.2.2.2.2.2.2.1)
    try simp only [zero_mul, add_zero] at h
    refine h.congr_deriv ?_
    rw [sum_var]; simp only [Fin.sum_univ_three]; rfl

lemma gr_d2gds2_0_1 (y : Var 3 3 → ℝ) (hy : Dom y) :
    Gr (fun y => (tables (raw y) y).d2gds2 0 1) y ((tables (raw y) y).at3 (.inr 0) (.inr 1)) := by
  refine Gr.of_lines ?_ fun u => ?_
  · have hp := pos y hy
    change DifferentiableAt ℝ (fun y => D2GDS0S1 (y (.inl iT)) (raw y 3) (raw y 8)) y
    have d3 := raw_diff 3 y
    have q3 := hp.2.2.2.1
    have n3 := q3.ne'
    have d8 := raw_diff 8 y
    have q8 := hp.2.2.2.2.2.2.2.2.1
    have n8 := q8.ne'
    try simp only [D2GDS0S1, zero_mul, mul_zero, add_zero, zero_add, sub_zero]
    ddq
  · have hp := pos y hy
    have h := c_D2GDS0S1 (hl y u ((.inl iT))) (hl y u ((.inl iP))) (hl y u ((.inl (.inl 0)))) (hl y u ((.inl (.inl
        1)))) (hl y u ((.inl (.inl 2)))) (hl y u ((.inr 0))) (hl y u ((.inr 1))) (hl y u ((.inr
        2))) (raw_line3 y u) (by simpa only [zero_mul, add_zero] using hp.2.2.2.1) (raw_line8 y u)
        (by simpa only [zero_mul, add_zero] using hp.2.2.2.2.2.2.2.2.1)
    try simp only [zero_mul, add_zero] at h
    refine h.congr_deriv ?_
    rw [sum_var]; simp only [Fin.sum_univ_three]; rfl

lemma gr_d2gds2_0_2 (y : Var 3 3 → ℝ) (hy : Dom y) :
    Gr (fun y => (tables (raw y) y).d2gds2 0 2) y ((tables (raw y) y).at3 (.inr 0) (.inr 2)) := by
  refine Gr.of_lines ?_ fun u => ?_
  · have hp := pos y hy
    change DifferentiableAt ℝ (fun y => D2GDS0S2 (y (.inl iT)) (raw y 3) (raw y 8)) y
    have d3 := raw_diff 3 y
    have q3 := hp.2.2.2.1
    have n3 := q3.ne'
    have d8 := raw_diff 8 y
    have q8 := hp.2.2.2.2.2.2.2.2.1
    have n8 := q8.ne'
    try simp only [D2GDS0S2, zero_mul, mul_zero, add_zero, zero_add, sub_zero]
    ddq
  · have hp := pos y hy
    have h := c_D2GDS0S2 (hl y u ((.inl iT))) (hl y u ((.inl iP))) (hl y u ((.inl (.inl 0)))) (hl y u ((.inl (.inl
        1)))) (hl y u ((.inl (.inl 2)))) (hl y u ((.inr 0))) (hl y u ((.inr 1))) (hl y u ((.inr
        2))) (raw_line3 y u) (by simpa only [zero_mul, add_zero] using hp.2.2.2.1) (raw_line8 y u)
        (by simpa only [zero_mul, add_zero] using hp.2.2.2.2.2.2.2.2.1)
    try simp only [zero_mul, add_zero] at h
    refine h.congr_deriv ?_
    rw [sum_var]; simp only [Fin.sum_univ_three]; rfl

lemma gr_d2gdsdt_0 (y : Var 3 3 → ℝ) (hy : Dom y) :
    Gr (fun y => (tables (raw y) y).d2gdsdt 0) y ((tables (raw y) y).at3 (.inr 0) (.inl iT)) := by
  refine Gr.of_lines ?_ fun u => ?_
  · have hp := pos y hy
    change DifferentiableAt ℝ (fun y => D2GDS0DT (raw y 0) (raw y 3) (raw y 5) (raw y 8)) y
    have d0 := raw_diff 0 y
    have q0 := hp.1
    have n0 := q0.ne'
    have d3 := raw_diff 3 y
    have q3 := hp.2.2.2.1
    have n3 := q3.ne'
    have d5 := raw_diff 5 y
    have q5 := hp.2.2.2.2.2.1
    have n5 := q5.ne'
    have d8 := raw_diff 8 y
    have q8 := hp.2.2.2.2.2.2.2.2.1
    have n8 := q8.ne'
    try simp only [D2GDS0DT, zero_mul, mul_zero, add_zero, zero_add, sub_zero]
    ddq
  · have hp := pos y hy
    have h := c_D2GDS0DT (hl y u ((.inl iT))) (hl y u ((.inl iP))) (hl y u ((.inl (.inl 0)))) (hl y u ((.inl (.inl
        1)))) (hl y u ((.inl (.inl 2)))) (hl y u ((.inr 0))) (hl y u ((.inr 1))) (hl y u ((.inr
        2))) (raw_line0 y u) (by simpa only [zero_mul, add_zero] using hp.1) (raw_line3 y u) (by
        simpa only [zero_mul, add_zero] using hp.2.2.2.1) (raw_line5 y u) (by simpa only
        [zero_mul, add_zero] using hp.2.2.2.2.2.1) (raw_line8 y u) (by simpa only [zero_mul,
        add_zero] using hp.2.2.2.2.2.2.2.2.1)
    try simp only [zero_mul, add_zero] at h
    refine h.congr_deriv ?_
    rw [sum_var]; simp only [Fin.sum_univ_three]; rfl

lemma gr_d2gdsdp_0 (y : Var 3 3 → ℝ) (hy : Dom y) :
    Gr (fun y => (tables (raw y) y).d2gdsdp 0) y ((tables (raw y) y).at3 (.inr 0) (.inl iP)) := by
  refine Gr.of_lines ?_ fun u => ?_
  · have hp := pos y hy
    change DifferentiableAt ℝ (fun y => D2GDS0DP) y
    try simp only [D2GDS0DP, zero_mul, mul_zero, add_zero, zero_add, sub_zero]
    ddq
  · have hp := pos y hy
    have h := c_D2GDS0DP (hl y u ((.inl iT))) (hl y u ((.inl iP))) (hl y u ((.inl (.inl 0)))) (hl y u ((.inl (.inl
        1)))) (hl y u ((.inl (.inl 2)))) (hl y u ((.inr 0))) (hl y u ((.inr 1))) (hl y u ((.inr
        2)))
    try simp only [zero_mul, add_zero] at h
    refine h.congr_deriv ?_
    rw [sum_var]; simp only [Fin.sum_univ_three]; rfl

lemma gr_d2gds2_1_1 (y : Var 3 3 → ℝ) (hy : Dom y) :
    Gr (fun y => (tables (raw y) y).d2gds2 1 1) y ((tables (raw y) y).at3 (.inr 1) (.inr 1)) := by
  refine Gr.of_lines ?_ fun u => ?_
  · have hp := pos y hy
    change DifferentiableAt ℝ (fun y => D2GDS1S1 (y (.inl iT)) (y (.inl (.inl 0))) (y (.inl (.inl 1))) (y (.inl (.inl 2))) (raw y 1) (raw y 3) (raw y 6) (raw y 8)) y
    have d1 := raw_diff 1 y
    have q1 := hp.2.1
    have n1 := q1.ne'
    have d3 := raw_diff 3 y
    have q3 := hp.2.2.2.1
    have n3 := q3.ne'
    have d6 := raw_diff 6 y
    have q6 := hp.2.2.2.2.2.2.1
    have n6 := q6.ne'
    have d8 := raw_diff 8 y
    have q8 := hp.2.2.2.2.2.2.2.2.1
    have n8 := q8.ne'
    try simp only [D2GDS1S1, zero_mul, mul_zero, add_zero, zero_add, sub_zero]
    ddq
  · have hp := pos y hy
    have h := c_D2GDS1S1 (hl y u ((.inl iT))) (hl y u ((.inl iP))) (hl y u ((.inl (.inl 0)))) (hl y u ((.inl (.inl
        1)))) (hl y u ((.inl (.inl 2)))) (hl y u ((.inr 0))) (hl y u ((.inr 1))) (hl y u ((.inr
        2))) (raw_line1 y u) (by simpa only [zero_mul, add_zero] using hp.2.1) (raw_line3 y u) (by
        simpa only [zero_mul, add_zero] using hp.2.2.2.1) (raw_line6 y u) (by simpa only
        [zero_mul, add_zero] using hp.2.2.2.2.2.2.1) (raw_line8 y u) (by simpa only [zero_mul,
        add_zero] using hp.2.2.2.2.2.2.2.2.1)
    try simp only [zero_mul, add_zero] at h
    refine h.congr_deriv ?_
    rw [sum_var]; simp only [Fin.sum_univ_three]; rfl

lemma gr_d2gds2_1_2 (y : Var 3 3 → ℝ) (hy : Dom y) :
    Gr (fun y => (tables (raw y) y).d2gds2 1 2) y ((tables (raw y) y).at3 (.inr 1) (.inr 2)) := by
  refine Gr.of_lines ?_ fun u => ?_
  · have hp := pos y hy
    change DifferentiableAt ℝ (fun y => D2GDS1S2 (y (.inl iT)) (raw y 3) (raw y 8)) y
    have d3 := raw_diff 3 y
    have q3 := hp.2.2.2.1
    have n3 := q3.ne'
    have d8 := raw_diff 8 y
    have q8 := hp.2.2.2.2.2.2.2.2.1
    have n8 := q8.ne'
    try simp only [D2GDS1S2, zero_mul, mul_zero, add_zero, zero_add, sub_zero]
    ddq
  · have hp := pos y hy
    have h := c_D2GDS1S2 (hl y u ((.inl iT))) (hl y u ((.inl iP))) (hl y u ((.inl (.inl 0)))) (hl y u ((.inl (.inl
        1)))) (hl y u ((.inl (.inl 2)))) (hl y u ((.inr 0))) (hl y u ((.inr 1))) (hl y u ((.inr
        2))) (raw_line3 y u) (by simpa only [zero_mul, add_zero] using hp.2.2.2.1) (raw_line8 y u)
        (by simpa only [zero_mul, add_zero] using hp.2.2.2.2.2.2.2.2.1)
    try simp only [zero_mul, add_zero] at h
    refine h.congr_deriv ?_
    rw [sum_var]; simp only [Fin.sum_univ_three]; rfl

lemma gr_d2gdsdt_1 (y : Var 3 3 → ℝ) (hy : Dom y) :
    Gr (fun y => (tables (raw y) y).d2gdsdt 1) y ((tables (raw y) y).at3 (.inr 1) (.inl iT)) := by
  refine Gr.of_lines ?_ fun u => ?_
  · have hp := pos y hy
    change DifferentiableAt ℝ (fun y => D2GDS1DT (raw y 1) (raw y 3) (raw y 6) (raw y 8)) y
    have d1 := raw_diff 1 y
    have q1 := hp.2.1
    have n1 := q1.ne'
    have d3 := raw_diff 3 y
    have q3 := hp.2.2.2.1
    have n3 := q3.ne'
    have d6 := raw_diff 6 y
    have q6 := hp.2.2.2.2.2.2.1
    have n6 := q6.ne'
    have d8 := raw_diff 8 y
    have q8 := hp.2.2.2.2.2.2.2.2.1
    have n8 := q8.ne'
    try simp only [D2GDS1DT, zero_mul, mul_zero, add_zero, zero_add, sub_zero]
    ddq
  · have hp := pos y hy
    have h := c_D2GDS1DT (hl y u ((.inl iT))) (hl y u ((.inl iP))) (hl y u ((.inl (.inl 0)))) (hl y u ((.inl (.inl
        1)))) (hl y u ((.inl (.inl 2)))) (hl y u ((.inr 0))) (hl y u ((.inr 1))) (hl y u ((.inr
        2))) (raw_line1 y u) (by simpa only [zero_mul, add_zero] using hp.2.1) (raw_line3 y u) (by
        simpa only [zero_mul, add_zero] using hp.2.2.2.1) (raw_line6 y u) (by simpa only
        [zero_mul, add_zero] using hp.2.2.2.2.2.2.1) (raw_line8 y u) (by simpa only [zero_mul,
        add_zero] using hp.2.2.2.2.2.2.2.2.1)
    try simp only [zero_mul, add_zero] at h
    refine h.congr_deriv ?_
    rw [sum_var]; simp only [Fin.sum_univ_three]; rfl

lemma gr_d2gdsdp_1 (y : Var 3 3 → ℝ) (hy : Dom y) :
    Gr (fun y => (tables (raw y) y).d2gdsdp 1) y ((tables (raw y) y).at3 (.inr 1) (.inl iP)) := by
  refine Gr.of_lines ?_ fun u => ?_
  · have hp := pos y hy
    change DifferentiableAt ℝ (fun y => D2GDS1DP) y
    try simp only [D2GDS1DP, zero_mul, mul_zero, add_zero, zero_add, sub_zero]
    ddq
  · have hp := pos y hy
    have h := c_D2GDS1DP (hl y u ((.inl iT))) (hl y u ((.inl iP))) (hl y u ((.inl (.inl 0)))) (hl y u ((.inl (.inl
        1)))) (hl y u ((.inl (.inl 2)))) (hl y u ((.inr 0))) (hl y u ((.inr 1))) (hl y u ((.inr
        2)))
    try simp only [zero_mul, add_zero] at h
    refine h.congr_deriv ?_
    rw [sum_var]; simp only [Fin.sum_univ_three]; rfl

lemma gr_d2gds2_2_2 (y : Var 3 3 → ℝ) (hy : Dom y) :
    Gr (fun y => (tables (raw y) y).d2gds2 2 2) y ((tables (raw y) y).at3 (.inr 2) (.inr 2)) := by
  refine Gr.of_lines ?_ fun u => ?_
  · have hp := pos y hy
    change DifferentiableAt ℝ (fun y => D2GDS2S2 (y (.inl iT)) (y (.inl (.inl 0))) (y (.inl (.inl 1))) (y (.inl (.inl 2))) (raw y 2) (raw y 3) (raw y 7) (raw y 8)) y
    have d2 := raw_diff 2 y
    have q2 := hp.2.2.1
    have n2 := q2.ne'
    have d3 := raw_diff 3 y
    have q3 := hp.2.2.2.1
    have n3 := q3.ne'
    have d7 := raw_diff 7 y
    have q7 := hp.2.2.2.2.2.2.2.1
    have n7 := q7.ne'
    have d8 := raw_diff 8 y
    have q8 := hp.2.2.2.2.2.2.2.2.1
    have n8 := q8.ne'
    try simp only [D2GDS2S2, zero_mul, mul_zero, add_zero, zero_add, sub_zero]
    ddq
  · have hp := pos y hy
    have h := c_D2GDS2S2 (hl y u ((.inl iT))) (hl y u ((.inl iP))) (hl y u ((.inl (.inl 0)))) (hl y u ((.inl (.inl
        1)))) (hl y u ((.inl (.inl 2)))) (hl y u ((.inr 0))) (hl y u ((.inr 1))) (hl y u ((.inr
        2))) (raw_line2 y u) (by simpa only [zero_mul, add_zero] using hp.2.2.1) (raw_line3 y u)
        (by simpa only [zero_mul, add_zero] using hp.2.2.2.1) (raw_line7 y u) (by simpa only
        [zero_mul, add_zero] using hp.2.2.2.2.2.2.2.1) (raw_line8 y u) (by simpa only [zero_mul,
        add_zero] using hp.2.2.2.2.2.2.2.2.1)
    try simp only [zero_mul, add_zero] at h
    refine h.congr_deriv ?_
    rw [sum_var]; simp only [Fin.sum_univ_three]; rfl

lemma gr_d2gdsdt_2 (y : Var 3 3 → ℝ) (hy : Dom y) :
    Gr (fun y => (tables (raw y) y).d2gdsdt 2) y ((tables (raw y) y).at3 (.inr 2) (.inl iT)) := by
  refine Gr.of_lines ?_ fun u => ?_
  · have hp := pos y hy
    change DifferentiableAt ℝ (fun y => D2GDS2DT (raw y 2) (raw y 3) (raw y 7) (raw y 8)) y
    have d2 := raw_diff 2 y
    have q2 := hp.2.2.1
    have n2 := q2.ne'
    have d3 := raw_diff 3 y
    have q3 := hp.2.2.2.1
    have n3 := q3.ne'
    have d7 := raw_diff 7 y
    have q7 := hp.2.2.2.2.2.2.2.1
    have n7 := q7.ne'
    have d8 := raw_diff 8 y
    have q8 := hp.2.2.2.2.2.2.2.2.1
    have n8 := q8.ne'
    try simp only [D2GDS2DT, zero_mul, mul_zero, add_zero, zero_add, sub_zero]
    ddq
  · have hp := pos y hy
    have h := c_D2GDS2DT (hl y u ((.inl iT))) (hl y u ((.inl iP))) (hl y u ((.inl (.inl 0)))) (hl y u ((.inl (.inl
        1)))) (hl y u ((.inl (.inl 2)))) (hl y u ((.inr 0))) (hl y u ((.inr 1))) (hl y u ((.inr
        2))) (raw_line2 y u) (by simpa only [zero_mul, add_zero] using hp.2.2.1) (raw_line3 y u)
        (by simpa only [zero_mul, add_zero] using hp.2.2.2.1) (raw_line7 y u) (by simpa only
        [zero_mul, add_zero] using hp.2.2.2.2.2.2.2.1) (raw_line8 y u) (by simpa only [zero_mul,
        add_zero] using hp.2.2.2.2.2.2.2.2.1)
    try simp only [zero_mul, add_zero] at h
    refine h.congr_deriv ?_
    rw [sum_var]; simp only [Fin.sum_univ_three]; rfl

lemma gr_d2gdsdp_2 (y : Var 3 3 → ℝ) (hy : Dom y) :
    Gr (fun y => (tables (raw y) y).d2gdsdp 2) y ((tables (raw y) y).at3 (.inr 2) (.inl iP)) := by
  refine Gr.of_lines ?_ fun u => ?_
  · have hp := pos y hy
    change DifferentiableAt ℝ (fun y => D2GDS2DP) y
    try simp only [D2GDS2DP, zero_mul, mul_zero, add_zero, zero_add, sub_zero]
    ddq
  · have hp := pos y hy
    have h := c_D2GDS2DP (hl y u ((.inl iT))) (hl y u ((.inl iP))) (hl y u ((.inl (.inl 0)))) (hl y u ((.inl (.inl
        1)))) (hl y u ((.inl (.inl 2)))) (hl y u ((.inr 0))) (hl y u ((.inr 1))) (hl y u ((.inr
        2)))
    try simp only [zero_mul, add_zero] at h
    refine h.congr_deriv ?_
    rw [sum_var]; simp only [Fin.sum_univ_three]; rfl

lemma gr_d2gdt2 (y : Var 3 3 → ℝ) (hy : Dom y) :
    Gr (fun y => (tables (raw y) y).d2gdt2) y ((tables (raw y) y).at3 (.inl iT) (.inl iT)) := by
  refine Gr.of_lines ?_ fun u => ?_
  · have hp := pos y hy
    change DifferentiableAt ℝ (fun y => D2GDT2) y
    try simp only [D2GDT2, zero_mul, mul_zero, add_zero, zero_add, sub_zero]
    ddq
  · have hp := pos y hy
    have h := c_D2GDT2 (hl y u ((.inl iT))) (hl y u ((.inl iP))) (hl y u ((.inl (.inl 0)))) (hl y u ((.inl (.inl
        1)))) (hl y u ((.inl (.inl 2)))) (hl y u ((.inr 0))) (hl y u ((.inr 1))) (hl y u ((.inr
        2)))
    try simp only [zero_mul, add_zero] at h
    refine h.congr_deriv ?_
    rw [sum_var]; simp only [Fin.sum_univ_three]; rfl

lemma gr_d2gdtdp (y : Var 3 3 → ℝ) (hy : Dom y) :
    Gr (fun y => (tables (raw y) y).d2gdtdp) y ((tables (raw y) y).at3 (.inl iT) (.inl iP)) := by
  refine Gr.of_lines ?_ fun u => ?_
  · have hp := pos y hy
    change DifferentiableAt ℝ (fun y => D2GDTDP) y
    try simp only [D2GDTDP, zero_mul, mul_zero, add_zero, zero_add, sub_zero]
    ddq
  · have hp := pos y hy
    have h := c_D2GDTDP (hl y u ((.inl iT))) (hl y u ((.inl iP))) (hl y u ((.inl (.inl 0)))) (hl y u ((.inl (.inl
        1)))) (hl y u ((.inl (.inl 2)))) (hl y u ((.inr 0))) (hl y u ((.inr 1))) (hl y u ((.inr
        2)))
    try simp only [zero_mul, add_zero] at h
    refine h.congr_deriv ?_
    rw [sum_var]; simp only [Fin.sum_univ_three]; rfl

lemma gr_d2gdp2 (y : Var 3 3 → ℝ) (hy : Dom y) :
    Gr (fun y => (tables (raw y) y).d2gdp2) y ((tables (raw y) y).at3 (.inl iP) (.inl iP)) := by
  refine Gr.of_lines ?_ fun u => ?_
  · have hp := pos y hy
    change DifferentiableAt ℝ (fun y => D2GDP2) y
    try simp only [D2GDP2, zero_mul, mul_zero, add_zero, zero_add, sub_zero]
    ddq
  · have hp := pos y hy
    have h := c_D2GDP2 (hl y u ((.inl iT))) (hl y u ((.inl iP))) (hl y u ((.inl (.inl 0)))) (hl y u ((.inl (.inl
        1)))) (hl y u ((.inl (.inl 2)))) (hl y u ((.inr 0))) (hl y u ((.inr 1))) (hl y u ((.inr
        2)))
    try simp only [zero_mul, add_zero] at h
    refine h.congr_deriv ?_
    rw [sum_var]; simp only [Fin.sum_univ_three]; rfl

lemma symm (x : Fin 10 → ℝ) (y : Var 3 3 → ℝ) : (tables x y).Symm := by
  constructor
  · intro i j; fin_cases i <;> fin_cases j <;> rfl
  · intro i j; fin_cases i <;> fin_cases j <;> rfl
  · intro i j k; fin_cases i <;> fin_cases j <;> fin_cases k <;> exact ⟨rfl, rfl⟩
  · intro i j k; fin_cases i <;> fin_cases j <;> fin_cases k <;> rfl
  · intro i j; fin_cases i <;> fin_cases j <;> rfl
  · intro i j; fin_cases i <;> fin_cases j <;> rfl
  · intro i j k; fin_cases i <;> fin_cases j <;> fin_cases k <;> rfl
  · intro i j k; fin_cases i <;> fin_cases j <;> fin_cases k <;> exact ⟨rfl, rfl⟩
  · intro i j; fin_cases i <;> fin_cases j <;> rfl
  · intro i j; fin_cases i <;> fin_cases j <;> rfl

lemma ok_raw : (jets fun y => tables (raw y) y).Ok Dom := by
  refine jets_ok (fun y _ => symm (raw y) y) gr_g ?_ gr_dgdt gr_dgdp ?_ ?_ ?_ ?_ ?_ ?_ ?_ ?_ gr_d2gdt2 gr_d2gdtdp gr_d2gdp2
  · intro y hy i
    fin_cases i
    · exact gr_dgdr_0 y hy
    · exact gr_dgdr_1 y hy
    · exact gr_dgdr_2 y hy
  · intro y hy i
    fin_cases i
    · exact gr_dgds_0 y hy
    · exact gr_dgds_1 y hy
    · exact gr_dgds_2 y hy
  · intro y hy i j
    fin_cases i <;> fin_cases j
    · exact gr_d2gdr2_0_0 y hy
    · exact gr_d2gdr2_0_1 y hy
    · exact gr_d2gdr2_0_2 y hy
    · exact (gr_d2gdr2_0_1 y hy).congr_d (funext fun k => ((symm (raw y) y).at3 _ _ k).1)
    · exact gr_d2gdr2_1_1 y hy
    · exact gr_d2gdr2_1_2 y hy
    · exact (gr_d2gdr2_0_2 y hy).congr_d (funext fun k => ((symm (raw y) y).at3 _ _ k).1)
    · exact (gr_d2gdr2_1_2 y hy).congr_d (funext fun k => ((symm (raw y) y).at3 _ _ k).1)
    · exact gr_d2gdr2_2_2 y hy
  · intro y hy i j
    fin_cases i <;> fin_cases j
    · exact gr_d2gdrds_0_0 y hy
    · exact gr_d2gdrds_0_1 y hy
    · exact gr_d2gdrds_0_2 y hy
    · exact gr_d2gdrds_1_0 y hy
    · exact gr_d2gdrds_1_1 y hy
    · exact gr_d2gdrds_1_2 y hy
    · exact gr_d2gdrds_2_0 y hy
    · exact gr_d2gdrds_2_1 y hy
    · exact gr_d2gdrds_2_2 y hy
  · intro y hy i
    fin_cases i
    · exact gr_d2gdrdt_0 y hy
    · exact gr_d2gdrdt_1 y hy
    · exact gr_d2gdrdt_2 y hy
  · intro y hy i
    fin_cases i
    · exact gr_d2gdrdp_0 y hy
    · exact gr_d2gdrdp_1 y hy
    · exact gr_d2gdrdp_2 y hy
  · intro y hy i j
    fin_cases i <;> fin_cases j
    · exact gr_d2gds2_0_0 y hy
    · exact gr_d2gds2_0_1 y hy
    · exact gr_d2gds2_0_2 y hy
    · exact (gr_d2gds2_0_1 y hy).congr_d (funext fun k => ((symm (raw y) y).at3 _ _ k).1)
    · exact gr_d2gds2_1_1 y hy
    · exact gr_d2gds2_1_2 y hy
    · exact (gr_d2gds2_0_2 y hy).congr_d (funext fun k => ((symm (raw y) y).at3 _ _ k).1)
    · exact (gr_d2gds2_1_2 y hy).congr_d (funext fun k => ((symm (raw y) y).at3 _ _ k).1)
    · exact gr_d2gds2_2_2 y hy
  · intro y hy i
    fin_cases i
    · exact gr_d2gdsdt_0 y hy
    · exact gr_d2gdsdt_1 y hy
    · exact gr_d2gdsdt_2 y hy
  · intro y hy i
    fin_cases i
    · exact gr_d2gdsdp_0 y hy
    · exact gr_d2gdsdp_1 y hy
    · exact gr_d2gdsdp_2 y hy

lemma site_eq (y : Var 3 3 → ℝ) (hy : Dom y) : site y = raw y := by
  obtain ⟨h0, h1, h2, h3, h4, h5, h6, h7, h8, h9⟩ := hy
  funext k; fin_cases k
  · exact keepAbove_eq h0
  · exact keepAbove_eq h1
  · exact keepAbove_eq h2
  · exact keepAbove_eq h3
  · exact keepAbove_eq h4
  · exact keepAbove_eq h5
  · exact keepAbove_eq h6
  · exact keepAbove_eq h7
  · exact keepAbove_eq h8
  · exact keepAbove_eq h9

lemma dom_open : IsOpen {y | Dom y} := by
  have hc : ∀ k, Continuous fun y => raw y k := fun k =>
    continuous_iff_continuousAt.2 fun y => (raw_diff k y).continuousAt
  exact (isOpen_lt continuous_const (hc 0)).inter ((isOpen_lt continuous_const (hc 1)).inter ((isOpen_lt
    continuous_const (hc 2)).inter ((isOpen_lt continuous_const (hc 3)).inter ((isOpen_lt continuous_const (hc
    4)).inter ((isOpen_lt continuous_const (hc 5)).inter ((isOpen_lt continuous_const (hc 6)).inter ((isOpen_lt
    continuous_const (hc 7)).inter ((isOpen_lt continuous_const (hc 8)).inter (isOpen_lt continuous_const (hc
    9))))))))))

/-- The arrays of rhombohedral.c are the derivatives of its Gibbs energy to third order. -/
theorem ok : (jets macros).Ok Dom :=
  ok_congr dom_open (fun y hy => by unfold macros; rw [site_eq y hy]) ok_raw

lemma entropy_eq (y : Var 3 3 → ℝ) : (jets macros).g1 y (.inl iT) = -(macros y).s := by
  change DGDT (site y 0) (site y 1) (site y 2) (site y 3) (site y 4) (site y 5) (site y 6) (site y 7) (site y 8) (site y 9) = -(S (site y 0) (site y 1) (site y 2) (site y 3) (site y 4) (site y 5) (site y 6) (site y 7) (site y 8) (site y 9))
  simp only [DGDT]

end Rhombohedral

end

end Verif.Thermo.Ordering
