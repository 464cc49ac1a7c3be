import Verif.Thermo.OrderTables

/-!
Clinoamphibole. Generated by /verif/tools/gen/genord.py from the macros of /repo/sources/amphibole.c: one definition per macro, with the
macros it mentions as definitions (the generator checks that this has the value of C's textual substitution).
-/

namespace Verif.Thermo.Ordering

open Magma.Thermo.Mixing (R)

noncomputable section

set_option linter.unusedVariables false
set_option linter.unnecessarySeqFocus false
set_option linter.unusedSimpArgs false
set_option linter.unusedTactic false
set_option linter.unreachableTactic false

namespace Clinoamphibole

/-- `SIC`, amphibole.c 614-617. -/
def SIC (xca2m4 xfe2m4 xfe2m13 xfe2m2 xmg2m4 xmg2m13 xmg2m2 : ℝ) : ℝ :=
  (-R) * (2 * xfe2m4 * Real.log xfe2m4 + 2 * xmg2m4 * Real.log xmg2m4 + 2 * xca2m4 * Real.log xca2m4 + 3 *
    xfe2m13 * Real.log xfe2m13 + 3 * xmg2m13 * Real.log xmg2m13 + 2 * xfe2m2 * Real.log xfe2m2 + 2 * xmg2m2 *
    Real.log xmg2m2)

/-- `S1`, amphibole.c 155 with `clino` true. -/
def S1 : ℝ :=
  0

/-- `S2`, amphibole.c 160 with `clino` true. -/
def S2 : ℝ :=
  0

/-- `S0`, amphibole.c 209. -/
def S0 : ℝ :=
  S1 / 2 + S2 / 2

/-- `SR`, amphibole.c 210. -/
def SR : ℝ :=
  (-S1) / 2 + S2 / 2

/-- `SS13`, amphibole.c 211. -/
def SS13 : ℝ :=
  0

/-- `SS2`, amphibole.c 212. -/
def SS2 : ℝ :=
  0

/-- `SRR`, amphibole.c 213. -/
def SRR : ℝ :=
  0

/-- `SRS13`, amphibole.c 214. -/
def SRS13 : ℝ :=
  0

/-- `SRS2`, amphibole.c 215. -/
def SRS2 : ℝ :=
  0

/-- `SS13S13`, amphibole.c 216. -/
def SS13S13 : ℝ :=
  0

/-- `SS13S2`, amphibole.c 217. -/
def SS13S2 : ℝ :=
  0

/-- `SS2S2`, amphibole.c 218. -/
def SS2S2 : ℝ :=
  0

/-- `S3`, amphibole.c 165 with `clino` true. -/
def S3 : ℝ :=
  0

/-- `SP`, amphibole.c 220. -/
def SP : ℝ :=
  -S1 + S3

/-- `SRP`, amphibole.c 221. -/
def SRP : ℝ :=
  0

/-- `SPS13`, amphibole.c 222. -/
def SPS13 : ℝ :=
  0

/-- `SPS2`, amphibole.c 223. -/
def SPS2 : ℝ :=
  0

/-- `SPP`, amphibole.c 224. -/
def SPP : ℝ :=
  0

/-- `SPS13S13`, amphibole.c 226. -/
def SPS13S13 : ℝ :=
  0

/-- `SPPS13`, amphibole.c 227. -/
def SPPS13 : ℝ :=
  0

/-- `SPPS2`, amphibole.c 228. -/
def SPPS2 : ℝ :=
  0

/-- `SRPS13`, amphibole.c 229. -/
def SRPS13 : ℝ :=
  0

/-- `SRPS2`, amphibole.c 230. -/
def SRPS2 : ℝ :=
  0

/-- `SPS2S2`, amphibole.c 231. -/
def SPS2S2 : ℝ :=
  0

/-- `SPS13S2`, amphibole.c 232. -/
def SPS13S2 : ℝ :=
  0

/-- `SRRP`, amphibole.c 233. -/
def SRRP : ℝ :=
  0

/-- `SRPP`, amphibole.c 234. -/
def SRPP : ℝ :=
  0

/-- `SPPP`, amphibole.c 235. -/
def SPPP : ℝ :=
  0

/-- `S`, amphibole.c 618-626. -/
def S (r0 r1 s0 s1 xca2m4 xfe2m4 xfe2m13 xfe2m2 xmg2m4 xmg2m13 xmg2m2 : ℝ) : ℝ :=
  SIC xca2m4 xfe2m4 xfe2m13 xfe2m2 xmg2m4 xmg2m13 xmg2m2 + S0 + SR * r0 + SS13 * s0 + SS2 * s1 + SRR * r0 * r0
    + SRS13 * r0 * s0 + SRS2 * r0 * s1 + SS13S13 * s0 * s0 + SS13S2 * s0 * s1 + SS2S2 * s1 * s1 + SP * r1 + SRP
    * r0 * r1 + SPS13 * r1 * s0 + SPS2 * r1 * s1 + SPP * r1 * r1 + SPS13S13 * r1 * s0 * s0 + SPPS13 * r1 * r1 *
    s0 + SPPS2 * r1 * r1 * s1 + SRPS13 * r0 * r1 * s0 + SRPS2 * r0 * r1 * s1 + SPS2S2 * r1 * s1 * s1 + SPS13S2 *
    r1 * s0 * s1 + SRRP * r0 * r0 * r1 + SRPP * r0 * r1 * r1 + SPPP * r1 * r1 * r1

/-- `H1`, amphibole.c 154 with `clino` true. -/
def H1 : ℝ :=
  0

/-- `H2`, amphibole.c 159 with `clino` true. -/
def H2 : ℝ :=
  0

/-- `cW123`, amphibole.c 104. -/
def cW123 : ℝ :=
  (127891 / 25000) * 1000

/-- `W123`, amphibole.c 139 with `clino` true. -/
def W123 : ℝ :=
  cW123

/-- `cW4`, amphibole.c 105. -/
def cW4 : ℝ :=
  (177977 / 50000) * 1000

/-- `W4`, amphibole.c 140 with `clino` true. -/
def W4 : ℝ :=
  cW4

/-- `cGX123_4`, amphibole.c 101. -/
def cGX123_4 : ℝ :=
  (121027 / 10000) * 1000

/-- `GX123_4`, amphibole.c 136 with `clino` true. -/
def GX123_4 : ℝ :=
  cGX123_4

/-- `H0`, amphibole.c 174. -/
def H0 : ℝ :=
  H1 / 2 + H2 / 2 + 5 * W123 / 4 + W4 / 2 + GX123_4 / 4

/-- `HR`, amphibole.c 175. -/
def HR : ℝ :=
  (-H1) / 2 + H2 / 2

/-- `GEX`, amphibole.c 98. -/
def GEX : ℝ :=
  (-(64639 / 2500)) * 1000

/-- `GDEX`, amphibole.c 99. -/
def GDEX : ℝ :=
  (118119 / 20000) * 1000

/-- `HS13`, amphibole.c 176. -/
def HS13 : ℝ :=
  3 * GEX / 5 + GDEX

/-- `HS2`, amphibole.c 177. -/
def HS2 : ℝ :=
  2 * GEX / 5 - GDEX

/-- `HRR`, amphibole.c 178. -/
def HRR : ℝ :=
  (-5) * W123 / 4 - W4 / 2 - GX123_4 / 4

/-- `cDZ`, amphibole.c 106. -/
def cDZ : ℝ :=
  (-(195433 / 250000)) * 1000

/-- `DZ`, amphibole.c 141 with `clino` true. -/
def DZ : ℝ :=
  cDZ

/-- `HRS13`, amphibole.c 179. -/
def HRS13 : ℝ :=
  5 * W123 / 14 - 6 * W4 / 7 - 5 * GX123_4 / 28 + DZ / 2

/-- `HRS2`, amphibole.c 180. -/
def HRS2 : ℝ :=
  15 * W123 / 14 - 4 * W4 / 7 - GX123_4 / 28 - DZ / 2

/-- `cGX13_24`, amphibole.c 102. -/
def cGX13_24 : ℝ :=
  (329327 / 100000) * 1000

/-- `GX13_24`, amphibole.c 137 with `clino` true. -/
def GX13_24 : ℝ :=
  cGX13_24

/-- `HS13S13`, amphibole.c 181-182. -/
def HS13S13 : ℝ :=
  (-125) * W123 / 98 - 18 * W4 / 49 - 43 * GX123_4 / 196 + GX13_24 / 2 - DZ / 14

/-- `cGX134_2`, amphibole.c 103. -/
def cGX134_2 : ℝ :=
  (30227 / 2000) * 1000

/-- `GX134_2`, amphibole.c 138 with `clino` true. -/
def GX134_2 : ℝ :=
  cGX134_2

/-- `HS13S2`, amphibole.c 183-184. -/
def HS13S2 : ℝ :=
  115 * W123 / 49 - 24 * W4 / 49 + 30 * GX123_4 / 49 - GX13_24 / 2 - GX134_2 / 2 - DZ / 7

/-- `HS2S2`, amphibole.c 185-186. -/
def HS2S2 : ℝ :=
  (-145) * W123 / 98 - 8 * W4 / 49 - 37 * GX123_4 / 196 + GX134_2 / 2 + 3 * DZ / 14

/-- `H3`, amphibole.c 164 with `clino` true. -/
def H3 : ℝ :=
  0

/-- `cWCAFE`, amphibole.c 110. -/
def cWCAFE : ℝ :=
  (39 / 2) * 1000

/-- `WCAFE`, amphibole.c 145 with `clino` true. -/
def WCAFE : ℝ :=
  cWCAFE

/-- `cWCAMG`, amphibole.c 109. -/
def cWCAMG : ℝ :=
  (281 / 10) * 1000

/-- `WCAMG`, amphibole.c 144 with `clino` true. -/
def WCAMG : ℝ :=
  cWCAMG

/-- `cGXCA_13`, amphibole.c 107. -/
def cGXCA_13 : ℝ :=
  (17801 / 1000) * 1000

/-- `GXCA_13`, amphibole.c 142 with `clino` true. -/
def GXCA_13 : ℝ :=
  cGXCA_13

/-- `cGXCA_2`, amphibole.c 108. -/
def cGXCA_2 : ℝ :=
  (-(2279 / 200)) * 1000

/-- `GXCA_2`, amphibole.c 143 with `clino` true. -/
def GXCA_2 : ℝ :=
  cGXCA_2

/-- `cDWCAFE`, amphibole.c 112. -/
def cDWCAFE : ℝ :=
  0 * 1000

/-- `DWCAFE`, amphibole.c 147 with `clino` true. -/
def DWCAFE : ℝ :=
  cDWCAFE

/-- `cDWCAMG`, amphibole.c 111. -/
def cDWCAMG : ℝ :=
  0 * 1000

/-- `DWCAMG`, amphibole.c 146 with `clino` true. -/
def DWCAMG : ℝ :=
  cDWCAMG

/-- `HP`, amphibole.c 188-189. -/
def HP : ℝ :=
  -H1 + H3 - W4 + WCAFE + WCAMG + GXCA_13 / 2 + GXCA_2 - DWCAFE / 2 - DWCAMG / 2

/-- `HRP`, amphibole.c 190-191. -/
def HRP : ℝ :=
  -W4 + WCAFE - WCAMG + GXCA_13 / 2 + GXCA_2 - DWCAFE + DWCAMG

/-- `HPS13`, amphibole.c 192-193. -/
def HPS13 : ℝ :=
  (-6) * W4 / 7 + 6 * WCAFE / 7 - 6 * WCAMG / 7 - 4 * GXCA_13 / 7 - GXCA_2 / 7 - 6 * DWCAFE / 7 + 6 * DWCAMG /
    7

/-- `HPS2`, amphibole.c 194-195. -/
def HPS2 : ℝ :=
  (-4) * W4 / 7 + 4 * WCAFE / 7 - 4 * WCAMG / 7 + 2 * GXCA_13 / 7 - 3 * GXCA_2 / 7 - 4 * DWCAFE / 7 + 4 *
    DWCAMG / 7

/-- `HPP`, amphibole.c 196. -/
def HPP : ℝ :=
  (-2) * WCAMG + DWCAFE + 3 * DWCAMG

/-- `HPS13S13`, amphibole.c 198. -/
def HPS13S13 : ℝ :=
  (-18) * DWCAFE / 49 - 18 * DWCAMG / 49

/-- `HPPS13`, amphibole.c 199. -/
def HPPS13 : ℝ :=
  6 * DWCAFE / 7 - 18 * DWCAMG / 7

/-- `HPPS2`, amphibole.c 200. -/
def HPPS2 : ℝ :=
  4 * DWCAFE / 7 - 12 * DWCAMG / 7

/-- `HRPS13`, amphibole.c 201. -/
def HRPS13 : ℝ :=
  (-6) * DWCAFE / 7 - 6 * DWCAMG / 7

/-- `HRPS2`, amphibole.c 202. -/
def HRPS2 : ℝ :=
  (-4) * DWCAFE / 7 - 4 * DWCAMG / 7

/-- `HPS2S2`, amphibole.c 203. -/
def HPS2S2 : ℝ :=
  (-8) * DWCAFE / 49 - 8 * DWCAMG / 49

/-- `HPS13S2`, amphibole.c 204. -/
def HPS13S2 : ℝ :=
  (-24) * DWCAFE / 49 - 24 * DWCAMG / 49

/-- `HRRP`, amphibole.c 205. -/
def HRRP : ℝ :=
  (-DWCAFE) / 2 - DWCAMG / 2

/-- `HRPP`, amphibole.c 206. -/
def HRPP : ℝ :=
  DWCAFE - 3 * DWCAMG

/-- `HPPP`, amphibole.c 207. -/
def HPPP : ℝ :=
  (-4) * DWCAMG

/-- `H`, amphibole.c 627-634. -/
def H (r0 r1 s0 s1 : ℝ) : ℝ :=
  H0 + HR * r0 + HS13 * s0 + HS2 * s1 + HRR * r0 * r0 + HRS13 * r0 * s0 + HRS2 * r0 * s1 + HS13S13 * s0 * s0 +
    HS13S2 * s0 * s1 + HS2S2 * s1 * s1 + HP * r1 + HRP * r0 * r1 + HPS13 * r1 * s0 + HPS2 * r1 * s1 + HPP * r1 *
    r1 + HPS13S13 * r1 * s0 * s0 + HPPS13 * r1 * r1 * s0 + HPPS2 * r1 * r1 * s1 + HRPS13 * r0 * r1 * s0 + HRPS2
    * r0 * r1 * s1 + HPS2S2 * r1 * s1 * s1 + HPS13S2 * r1 * s0 * s1 + HRRP * r0 * r0 * r1 + HRPP * r0 * r1 * r1
    + HPPP * r1 * r1 * r1

/-- `V1`, amphibole.c 156 with `clino` true. -/
def V1 : ℝ :=
  0

/-- `V2`, amphibole.c 161 with `clino` true. -/
def V2 : ℝ :=
  0

/-- `V0`, amphibole.c 237. -/
def V0 : ℝ :=
  V1 / 2 + V2 / 2

/-- `VR`, amphibole.c 238. -/
def VR : ℝ :=
  (-V1) / 2 + V2 / 2

/-- `VS13`, amphibole.c 239. -/
def VS13 : ℝ :=
  0

/-- `VS2`, amphibole.c 240. -/
def VS2 : ℝ :=
  0

/-- `VRR`, amphibole.c 241. -/
def VRR : ℝ :=
  0

/-- `VRS13`, amphibole.c 242. -/
def VRS13 : ℝ :=
  0

/-- `VRS2`, amphibole.c 243. -/
def VRS2 : ℝ :=
  0

/-- `VS13S13`, amphibole.c 244. -/
def VS13S13 : ℝ :=
  0

/-- `VS13S2`, amphibole.c 245. -/
def VS13S2 : ℝ :=
  0

/-- `VS2S2`, amphibole.c 246. -/
def VS2S2 : ℝ :=
  0

/-- `V3`, amphibole.c 166 with `clino` true. -/
def V3 : ℝ :=
  0

/-- `VP`, amphibole.c 248. -/
def VP : ℝ :=
  -V1 + V3

/-- `VRP`, amphibole.c 249. -/
def VRP : ℝ :=
  0

/-- `VPS13`, amphibole.c 250. -/
def VPS13 : ℝ :=
  0

/-- `VPS2`, amphibole.c 251. -/
def VPS2 : ℝ :=
  0

/-- `VPP`, amphibole.c 252. -/
def VPP : ℝ :=
  0

/-- `VPS13S13`, amphibole.c 254. -/
def VPS13S13 : ℝ :=
  0

/-- `VPPS13`, amphibole.c 255. -/
def VPPS13 : ℝ :=
  0

/-- `VPPS2`, amphibole.c 256. -/
def VPPS2 : ℝ :=
  0

/-- `VRPS13`, amphibole.c 257. -/
def VRPS13 : ℝ :=
  0

/-- `VRPS2`, amphibole.c 258. -/
def VRPS2 : ℝ :=
  0

/-- `VPS2S2`, amphibole.c 259. -/
def VPS2S2 : ℝ :=
  0

/-- `VPS13S2`, amphibole.c 260. -/
def VPS13S2 : ℝ :=
  0

/-- `VRRP`, amphibole.c 261. -/
def VRRP : ℝ :=
  0

/-- `VRPP`, amphibole.c 262. -/
def VRPP : ℝ :=
  0

/-- `VPPP`, amphibole.c 263. -/
def VPPP : ℝ :=
  0

/-- `V`, amphibole.c 635-642. -/
def V (r0 r1 s0 s1 : ℝ) : ℝ :=
  V0 + VR * r0 + VS13 * s0 + VS2 * s1 + VRR * r0 * r0 + VRS13 * r0 * s0 + VRS2 * r0 * s1 + VS13S13 * s0 * s0 +
    VS13S2 * s0 * s1 + VS2S2 * s1 * s1 + VP * r1 + VRP * r0 * r1 + VPS13 * r1 * s0 + VPS2 * r1 * s1 + VPP * r1 *
    r1 + VPS13S13 * r1 * s0 * s0 + VPPS13 * r1 * r1 * s0 + VPPS2 * r1 * r1 * s1 + VRPS13 * r0 * r1 * s0 + VRPS2
    * r0 * r1 * s1 + VPS2S2 * r1 * s1 * s1 + VPS13S2 * r1 * s0 * s1 + VRRP * r0 * r0 * r1 + VRPP * r0 * r1 * r1
    + VPPP * r1 * r1 * r1

/-- `G1`, amphibole.c 157 with `clino` true. -/
def G1 : ℝ :=
  0

/-- `G2`, amphibole.c 162 with `clino` true. -/
def G2 : ℝ :=
  0

/-- `G0`, amphibole.c 265. -/
def G0 : ℝ :=
  G1 / 2 + G2 / 2 + 5 * W123 / 4 + W4 / 2 + GX123_4 / 4

/-- `GR`, amphibole.c 266. -/
def GR : ℝ :=
  (-G1) / 2 + G2 / 2

/-- `GS13`, amphibole.c 267. -/
def GS13 : ℝ :=
  3 * GEX / 5 + GDEX

/-- `GS2`, amphibole.c 268. -/
def GS2 : ℝ :=
  2 * GEX / 5 - GDEX

/-- `GRR`, amphibole.c 269. -/
def GRR : ℝ :=
  (-5) * W123 / 4 - W4 / 2 - GX123_4 / 4

/-- `GRS13`, amphibole.c 270. -/
def GRS13 : ℝ :=
  5 * W123 / 14 - 6 * W4 / 7 - 5 * GX123_4 / 28 + DZ / 2

/-- `GRS2`, amphibole.c 271. -/
def GRS2 : ℝ :=
  15 * W123 / 14 - 4 * W4 / 7 - GX123_4 / 28 - DZ / 2

/-- `GS13S13`, amphibole.c 272-273. -/
def GS13S13 : ℝ :=
  (-125) * W123 / 98 - 18 * W4 / 49 - 43 * GX123_4 / 196 + GX13_24 / 2 - DZ / 14

/-- `GS13S2`, amphibole.c 274-275. -/
def GS13S2 : ℝ :=
  115 * W123 / 49 - 24 * W4 / 49 + 30 * GX123_4 / 49 - GX13_24 / 2 - GX134_2 / 2 - DZ / 7

/-- `GS2S2`, amphibole.c 276-277. -/
def GS2S2 : ℝ :=
  (-145) * W123 / 98 - 8 * W4 / 49 - 37 * GX123_4 / 196 + GX134_2 / 2 + 3 * DZ / 14

/-- `G3`, amphibole.c 167 with `clino` true. -/
def G3 : ℝ :=
  0

/-- `GP`, amphibole.c 279-280. -/
def GP : ℝ :=
  -G1 + G3 - W4 + WCAFE + WCAMG + GXCA_13 / 2 + GXCA_2 - DWCAFE / 2 - DWCAMG / 2

/-- `GRP`, amphibole.c 281-282. -/
def GRP : ℝ :=
  -W4 + WCAFE - WCAMG + GXCA_13 / 2 + GXCA_2 - DWCAFE + DWCAMG

/-- `GPS13`, amphibole.c 283-284. -/
def GPS13 : ℝ :=
  (-6) * W4 / 7 + 6 * WCAFE / 7 - 6 * WCAMG / 7 - 4 * GXCA_13 / 7 - GXCA_2 / 7 - 6 * DWCAFE / 7 + 6 * DWCAMG /
    7

/-- `GPS2`, amphibole.c 285-286. -/
def GPS2 : ℝ :=
  (-4) * W4 / 7 + 4 * WCAFE / 7 - 4 * WCAMG / 7 + 2 * GXCA_13 / 7 - 3 * GXCA_2 / 7 - 4 * DWCAFE / 7 + 4 *
    DWCAMG / 7

/-- `GPP`, amphibole.c 287. -/
def GPP : ℝ :=
  (-2) * WCAMG + DWCAFE + 3 * DWCAMG

/-- `GPS13S13`, amphibole.c 289. -/
def GPS13S13 : ℝ :=
  (-18) * DWCAFE / 49 - 18 * DWCAMG / 49

/-- `GPPS13`, amphibole.c 290. -/
def GPPS13 : ℝ :=
  6 * DWCAFE / 7 - 18 * DWCAMG / 7

/-- `GPPS2`, amphibole.c 291. -/
def GPPS2 : ℝ :=
  4 * DWCAFE / 7 - 12 * DWCAMG / 7

/-- `GRPS13`, amphibole.c 292. -/
def GRPS13 : ℝ :=
  (-6) * DWCAFE / 7 - 6 * DWCAMG / 7

/-- `GRPS2`, amphibole.c 293. -/
def GRPS2 : ℝ :=
  (-4) * DWCAFE / 7 - 4 * DWCAMG / 7

/-- `GPS2S2`, amphibole.c 294. -/
def GPS2S2 : ℝ :=
  (-8) * DWCAFE / 49 - 8 * DWCAMG / 49

/-- `GPS13S2`, amphibole.c 295. -/
def GPS13S2 : ℝ :=
  (-24) * DWCAFE / 49 - 24 * DWCAMG / 49

/-- `GRRP`, amphibole.c 296. -/
def GRRP : ℝ :=
  (-DWCAFE) / 2 - DWCAMG / 2

/-- `GRPP`, amphibole.c 297. -/
def GRPP : ℝ :=
  DWCAFE - 3 * DWCAMG

/-- `GPPP`, amphibole.c 298. -/
def GPPP : ℝ :=
  (-4) * DWCAMG

/-- `G`, amphibole.c 643-651. -/
def G (t r0 r1 s0 s1 xca2m4 xfe2m4 xfe2m13 xfe2m2 xmg2m4 xmg2m13 xmg2m2 : ℝ) : ℝ :=
  (-t) * (SIC xca2m4 xfe2m4 xfe2m13 xfe2m2 xmg2m4 xmg2m13 xmg2m2) + G0 + GR * r0 + GS13 * s0 + GS2 * s1 + GRR
    * r0 * r0 + GRS13 * r0 * s0 + GRS2 * r0 * s1 + GS13S13 * s0 * s0 + GS13S2 * s0 * s1 + GS2S2 * s1 * s1 + GP *
    r1 + GRP * r0 * r1 + GPS13 * r1 * s0 + GPS2 * r1 * s1 + GPP * r1 * r1 + GPS13S13 * r1 * s0 * s0 + GPPS13 *
    r1 * r1 * s0 + GPPS2 * r1 * r1 * s1 + GRPS13 * r0 * r1 * s0 + GRPS2 * r0 * r1 * s1 + GPS2S2 * r1 * s1 * s1 +
    GPS13S2 * r1 * s0 * s1 + GRRP * r0 * r0 * r1 + GRPP * r0 * r1 * r1 + GPPP * r1 * r1 * r1

/-- `DGDR0`, amphibole.c 655-659. -/
def DGDR0 (t r0 r1 s0 s1 xfe2m4 xfe2m13 xfe2m2 xmg2m4 xmg2m13 xmg2m2 : ℝ) : ℝ :=
  R * t * (Real.log xfe2m4 - Real.log xmg2m4 + 3 * Real.log xfe2m13 / 2 - 3 * Real.log xmg2m13 / 2 + Real.log
    xfe2m2 - Real.log xmg2m2) + GR + 2 * GRR * r0 + GRS13 * s0 + GRS2 * s1 + GRP * r1 + GRPS13 * r1 * s0 + GRPS2
    * r1 * s1 + 2 * GRRP * r0 * r1 + GRPP * r1 * r1

/-- `DGDR1`, amphibole.c 660-665. -/
def DGDR1 (t r0 r1 s0 s1 xca2m4 xmg2m4 : ℝ) : ℝ :=
  R * t * ((-2) * Real.log xmg2m4 + 2 * Real.log xca2m4) + GP + GRP * r0 + GPS13 * s0 + GPS2 * s1 + 2 * GPP *
    r1 + GPS13S13 * s0 * s0 + 2 * GPPS13 * r1 * s0 + 2 * GPPS2 * r1 * s1 + GRPS13 * r0 * s0 + GRPS2 * r0 * s1 +
    GPS2S2 * s1 * s1 + GPS13S2 * s0 * s1 + GRRP * r0 * r0 + 2 * GRPP * r0 * r1 + 3 * GPPP * r1 * r1

/-- `DGDS0`, amphibole.c 666-671. -/
def DGDS0 (t r0 r1 s0 s1 xfe2m4 xfe2m13 xfe2m2 xmg2m4 xmg2m13 xmg2m2 : ℝ) : ℝ :=
  R * t * (6 * Real.log xfe2m4 / 7 - 6 * Real.log xmg2m4 / 7 - 12 * Real.log xfe2m13 / 7 + 12 * Real.log
    xmg2m13 / 7 + 6 * Real.log xfe2m2 / 7 - 6 * Real.log xmg2m2 / 7) + GS13 + GRS13 * r0 + 2 * GS13S13 * s0 +
    GS13S2 * s1 + GPS13 * r1 + 2 * GPS13S13 * r1 * s0 + GPPS13 * r1 * r1 + GRPS13 * r0 * r1 + GPS13S2 * r1 * s1

/-- `DGDS1`, amphibole.c 672-677. -/
def DGDS1 (t r0 r1 s0 s1 xfe2m4 xfe2m13 xfe2m2 xmg2m4 xmg2m13 xmg2m2 : ℝ) : ℝ :=
  R * t * (4 * Real.log xfe2m4 / 7 - 4 * Real.log xmg2m4 / 7 + 6 * Real.log xfe2m13 / 7 - 6 * Real.log xmg2m13
    / 7 - 10 * Real.log xfe2m2 / 7 + 10 * Real.log xmg2m2 / 7) + GS2 + GRS2 * r0 + GS13S2 * s0 + 2 * GS2S2 * s1
    + GPS2 * r1 + GPPS2 * r1 * r1 + GRPS2 * r0 * r1 + 2 * GPS2S2 * r1 * s1 + GPS13S2 * r1 * s0

/-- `DGDT`, amphibole.c 678. -/
def DGDT (r0 r1 s0 s1 xca2m4 xfe2m4 xfe2m13 xfe2m2 xmg2m4 xmg2m13 xmg2m2 : ℝ) : ℝ :=
  -(S r0 r1 s0 s1 xca2m4 xfe2m4 xfe2m13 xfe2m2 xmg2m4 xmg2m13 xmg2m2)

/-- `DGDP`, amphibole.c 679. -/
def DGDP (r0 r1 s0 s1 : ℝ) : ℝ :=
  V r0 r1 s0 s1

/-- `D2GDR0R0`, amphibole.c 683-685. -/
def D2GDR0R0 (t r1 xfe2m4 xfe2m13 xfe2m2 xmg2m4 xmg2m13 xmg2m2 : ℝ) : ℝ :=
  R * t * (1 / (2 * xfe2m4) + 1 / (2 * xmg2m4) + 3 / (4 * xfe2m13) + 3 / (4 * xmg2m13) + 1 / (2 * xfe2m2) + 1
    / (2 * xmg2m2)) + 2 * GRR + 2 * GRRP * r1

/-- `D2GDR0R1`, amphibole.c 686-687. -/
def D2GDR0R1 (t r0 r1 s0 s1 xmg2m4 : ℝ) : ℝ :=
  R * t * (1 / xmg2m4) + GRP + GRPS13 * s0 + GRPS2 * s1 + 2 * GRRP * r0 + 2 * GRPP * r1

/-- `D2GDR0S0`, amphibole.c 688-690. -/
def D2GDR0S0 (t r1 xfe2m4 xfe2m13 xfe2m2 xmg2m4 xmg2m13 xmg2m2 : ℝ) : ℝ :=
  R * t * (3 / (7 * xfe2m4) + 3 / (7 * xmg2m4) - 6 / (7 * xfe2m13) - 6 / (7 * xmg2m13) + 3 / (7 * xfe2m2) + 3
    / (7 * xmg2m2)) + GRS13 + GRPS13 * r1

/-- `D2GDR0S1`, amphibole.c 691-693. -/
def D2GDR0S1 (t r1 xfe2m4 xfe2m13 xfe2m2 xmg2m4 xmg2m13 xmg2m2 : ℝ) : ℝ :=
  R * t * (2 / (7 * xfe2m4) + 2 / (7 * xmg2m4) + 3 / (7 * xfe2m13) + 3 / (7 * xmg2m13) - 5 / (7 * xfe2m2) - 5
    / (7 * xmg2m2)) + GRS2 + GRPS2 * r1

/-- `D2GDR0DT`, amphibole.c 694-698. -/
def D2GDR0DT (r0 r1 s0 s1 xfe2m4 xfe2m13 xfe2m2 xmg2m4 xmg2m13 xmg2m2 : ℝ) : ℝ :=
  R * (Real.log xfe2m4 - Real.log xmg2m4 + 3 * Real.log xfe2m13 / 2 - 3 * Real.log xmg2m13 / 2 + Real.log
    xfe2m2 - Real.log xmg2m2) - SR - 2 * SRR * r0 - SRS13 * s0 - SRS2 * s1 - SRP * r1 - SRPS13 * r1 * s0 - SRPS2
    * r1 * s1 - 2 * SRRP * r0 * r1 - SRPP * r1 * r1

/-- `D2GDR0DP`, amphibole.c 699-701. -/
def D2GDR0DP (r0 r1 s0 s1 : ℝ) : ℝ :=
  VR + 2 * VRR * r0 + VRS13 * s0 + VRS2 * s1 + VRP * r1 + VRPS13 * r1 * s0 + VRPS2 * r1 * s1 + 2 * VRRP * r0 *
    r1 + VRPP * r1 * r1

/-- `D2GDR1R1`, amphibole.c 703-705. -/
def D2GDR1R1 (t r0 r1 s0 s1 xca2m4 xmg2m4 : ℝ) : ℝ :=
  R * t * (2 / xmg2m4 + 2 / xca2m4) + 2 * GPP + 2 * GPPS13 * s0 + 2 * GPPS2 * s1 + 2 * GRPP * r0 + 6 * GPPP *
    r1

/-- `D2GDR1S0`, amphibole.c 706-708. -/
def D2GDR1S0 (t r0 r1 s0 s1 xmg2m4 : ℝ) : ℝ :=
  R * t * (6 / (7 * xmg2m4)) + GPS13 + 2 * GPS13S13 * s0 + 2 * GPPS13 * r1 + GRPS13 * r0 + GPS13S2 * s1

/-- `D2GDR1S1`, amphibole.c 709-711. -/
def D2GDR1S1 (t r0 r1 s0 s1 xmg2m4 : ℝ) : ℝ :=
  R * t * (4 / (7 * xmg2m4)) + GPS2 + 2 * GPPS2 * r1 + GRPS2 * r0 + 2 * GPS2S2 * s1 + GPS13S2 * s0

/-- `D2GDR1DT`, amphibole.c 712-717. -/
def D2GDR1DT (r0 r1 s0 s1 xca2m4 xmg2m4 : ℝ) : ℝ :=
  R * ((-2) * Real.log xmg2m4 + 2 * Real.log xca2m4) - SP - SRP * r0 - SPS13 * s0 - SPS2 * s1 - 2 * SPP * r1 -
    SPS13S13 * s0 * s0 - 2 * SPPS13 * r1 * s0 - 2 * SPPS2 * r1 * s1 - SRPS13 * r0 * s0 - SRPS2 * r0 * s1 -
    SPS2S2 * s1 * s1 - SPS13S2 * s0 * s1 - SRRP * r0 * r0 - 2 * SRPP * r0 * r1 - 3 * SPPP * r1 * r1

/-- `D2GDR1DP`, amphibole.c 718-722. -/
def D2GDR1DP (r0 r1 s0 s1 : ℝ) : ℝ :=
  VP + VRP * r0 + VPS13 * s0 + VPS2 * s1 + 2 * VPP * r1 + VPS13S13 * s0 * s0 + 2 * VPPS13 * r1 * s0 + 2 *
    VPPS2 * r1 * s1 + VRPS13 * r0 * s0 + VRPS2 * r0 * s1 + VPS2S2 * s1 * s1 + VPS13S2 * s0 * s1 + VRRP * r0 * r0
    + 2 * VRPP * r0 * r1 + 3 * VPPP * r1 * r1

/-- `D2GDS0S0`, amphibole.c 724-727. -/
def D2GDS0S0 (t r1 xfe2m4 xfe2m13 xfe2m2 xmg2m4 xmg2m13 xmg2m2 : ℝ) : ℝ :=
  R * t * (6 * 3 / (7 * 7 * xfe2m4) + 6 * 3 / (7 * 7 * xmg2m4) + 12 * 4 / (7 * 7 * xfe2m13) + 12 * 4 / (7 * 7
    * xmg2m13) + 6 * 3 / (7 * 7 * xfe2m2) + 6 * 3 / (7 * 7 * xmg2m2)) + 2 * GS13S13 + 2 * GPS13S13 * r1

/-- `D2GDS0S1`, amphibole.c 728-731. -/
def D2GDS0S1 (t r1 xfe2m4 xfe2m13 xfe2m2 xmg2m4 xmg2m13 xmg2m2 : ℝ) : ℝ :=
  R * t * (6 * 2 / (7 * 7 * xfe2m4) + 6 * 2 / (7 * 7 * xmg2m4) - 12 * 2 / (7 * 7 * xfe2m13) - 12 * 2 / (7 * 7
    * xmg2m13) - 6 * 5 / (7 * 7 * xfe2m2) - 6 * 5 / (7 * 7 * xmg2m2)) + GS13S2 + GPS13S2 * r1

/-- `D2GDS0DT`, amphibole.c 732-737. -/
def D2GDS0DT (r0 r1 s0 s1 xfe2m4 xfe2m13 xfe2m2 xmg2m4 xmg2m13 xmg2m2 : ℝ) : ℝ :=
  R * (6 * Real.log xfe2m4 / 7 - 6 * Real.log xmg2m4 / 7 - 12 * Real.log xfe2m13 / 7 + 12 * Real.log xmg2m13 /
    7 + 6 * Real.log xfe2m2 / 7 - 6 * Real.log xmg2m2 / 7) - SS13 - SRS13 * r0 - 2 * SS13S13 * s0 - SS13S2 * s1
    - SPS13 * r1 - 2 * SPS13S13 * r1 * s0 - SPPS13 * r1 * r1 - SRPS13 * r0 * r1 - SPS13S2 * r1 * s1

/-- `D2GDS0DP`, amphibole.c 738-740. -/
def D2GDS0DP (r0 r1 s0 s1 : ℝ) : ℝ :=
  VS13 + VRS13 * r0 + 2 * VS13S13 * s0 + VS13S2 * s1 + VPS13 * r1 + 2 * VPS13S13 * r1 * s0 + VPPS13 * r1 * r1
    + VRPS13 * r0 * r1 + VPS13S2 * r1 * s1

/-- `D2GDS1S1`, amphibole.c 742-745. -/
def D2GDS1S1 (t r1 xfe2m4 xfe2m13 xfe2m2 xmg2m4 xmg2m13 xmg2m2 : ℝ) : ℝ :=
  R * t * (4 * 2 / (7 * 7 * xfe2m4) + 4 * 2 / (7 * 7 * xmg2m4) + 6 * 2 / (7 * 7 * xfe2m13) + 6 * 2 / (7 * 7 *
    xmg2m13) + 10 * 5 / (7 * 7 * xfe2m2) + 10 * 5 / (7 * 7 * xmg2m2)) + 2 * GS2S2 + 2 * GPS2S2 * r1

/-- `D2GDS1DT`, amphibole.c 746-751. -/
def D2GDS1DT (r0 r1 s0 s1 xfe2m4 xfe2m13 xfe2m2 xmg2m4 xmg2m13 xmg2m2 : ℝ) : ℝ :=
  R * (4 * Real.log xfe2m4 / 7 - 4 * Real.log xmg2m4 / 7 + 6 * Real.log xfe2m13 / 7 - 6 * Real.log xmg2m13 / 7
    - 10 * Real.log xfe2m2 / 7 + 10 * Real.log xmg2m2 / 7) - SS2 - SRS2 * r0 - SS13S2 * s0 - 2 * SS2S2 * s1 -
    SPS2 * r1 - SPPS2 * r1 * r1 - SRPS2 * r0 * r1 - 2 * SPS2S2 * r1 * s1 - SPS13S2 * r1 * s0

/-- `D2GDS1DP`, amphibole.c 752-754. -/
def D2GDS1DP (r0 r1 s0 s1 : ℝ) : ℝ :=
  VS2 + VRS2 * r0 + VS13S2 * s0 + 2 * VS2S2 * s1 + VPS2 * r1 + VPPS2 * r1 * r1 + VRPS2 * r0 * r1 + 2 * VPS2S2
    * r1 * s1 + VPS13S2 * r1 * s0

/-- `D2GDT2`, amphibole.c 756. -/
def D2GDT2 : ℝ :=
  0

/-- `D2GDTDP`, amphibole.c 757. -/
def D2GDTDP : ℝ :=
  0

/-- `D2GDP2`, amphibole.c 758. -/
def D2GDP2 : ℝ :=
  0

/-- `D3GDR0R0R0`, amphibole.c 762-764. -/
def D3GDR0R0R0 (t xfe2m4 xfe2m13 xfe2m2 xmg2m4 xmg2m13 xmg2m2 : ℝ) : ℝ :=
  R * t * ((-1) / (4 * xfe2m4 * xfe2m4) + 1 / (4 * xmg2m4 * xmg2m4) - 3 / (8 * xfe2m13 * xfe2m13) + 3 / (8 *
    xmg2m13 * xmg2m13) - 1 / (4 * xfe2m2 * xfe2m2) + 1 / (4 * xmg2m2 * xmg2m2))

/-- `D3GDR0R0R1`, amphibole.c 765. -/
def D3GDR0R0R1 (t xmg2m4 : ℝ) : ℝ :=
  R * t * (1 / (2 * xmg2m4 * xmg2m4)) + 2 * GRRP

/-- `D3GDR0R0S0`, amphibole.c 766-768. -/
def D3GDR0R0S0 (t xfe2m4 xfe2m13 xfe2m2 xmg2m4 xmg2m13 xmg2m2 : ℝ) : ℝ :=
  R * t * ((-3) / (2 * 7 * xfe2m4 * xfe2m4) + 3 / (2 * 7 * xmg2m4 * xmg2m4) + 3 * 4 / (4 * 7 * xfe2m13 *
    xfe2m13) - 3 * 4 / (4 * 7 * xmg2m13 * xmg2m13) - 3 / (2 * 7 * xfe2m2 * xfe2m2) + 3 / (2 * 7 * xmg2m2 *
    xmg2m2))

/-- `D3GDR0R0S1`, amphibole.c 769-771. -/
def D3GDR0R0S1 (t xfe2m4 xfe2m13 xfe2m2 xmg2m4 xmg2m13 xmg2m2 : ℝ) : ℝ :=
  R * t * ((-2) / (2 * 7 * xfe2m4 * xfe2m4) + 2 / (2 * 7 * xmg2m4 * xmg2m4) - 3 * 2 / (4 * 7 * xfe2m13 *
    xfe2m13) + 3 * 2 / (4 * 7 * xmg2m13 * xmg2m13) + 5 / (2 * 7 * xfe2m2 * xfe2m2) - 5 / (2 * 7 * xmg2m2 *
    xmg2m2))

/-- `D3GDR0R0DT`, amphibole.c 772-774. -/
def D3GDR0R0DT (r1 xfe2m4 xfe2m13 xfe2m2 xmg2m4 xmg2m13 xmg2m2 : ℝ) : ℝ :=
  R * (1 / (2 * xfe2m4) + 1 / (2 * xmg2m4) + 3 / (4 * xfe2m13) + 3 / (4 * xmg2m13) + 1 / (2 * xfe2m2) + 1 / (2
    * xmg2m2)) - 2 * SRR - 2 * SRRP * r1

/-- `D3GDR0R0DP`, amphibole.c 775. -/
def D3GDR0R0DP (r1 : ℝ) : ℝ :=
  2 * VRR + 2 * VRRP * r1

/-- `D3GDR0R1R1`, amphibole.c 777. -/
def D3GDR0R1R1 (t xmg2m4 : ℝ) : ℝ :=
  R * t * (1 / (xmg2m4 * xmg2m4)) + 2 * GRPP

/-- `D3GDR0R1S0`, amphibole.c 778. -/
def D3GDR0R1S0 (t xmg2m4 : ℝ) : ℝ :=
  R * t * (3 / (7 * xmg2m4 * xmg2m4)) + GRPS13

/-- `D3GDR0R1S1`, amphibole.c 779. -/
def D3GDR0R1S1 (t xmg2m4 : ℝ) : ℝ :=
  R * t * (2 / (7 * xmg2m4 * xmg2m4)) + GRPS2

/-- `D3GDR0R1DT`, amphibole.c 780-781. -/
def D3GDR0R1DT (r0 r1 s0 s1 xmg2m4 : ℝ) : ℝ :=
  R * (1 / xmg2m4) - SRP - SRPS13 * s0 - SRPS2 * s1 - 2 * SRRP * r0 - 2 * SRPP * r1

/-- `D3GDR0R1DP`, amphibole.c 782-783. -/
def D3GDR0R1DP (r0 r1 s0 s1 : ℝ) : ℝ :=
  VRP + VRPS13 * s0 + VRPS2 * s1 + 2 * VRRP * r0 + 2 * VRPP * r1

/-- `D3GDR0S0S0`, amphibole.c 785-787. -/
def D3GDR0S0S0 (t xfe2m4 xfe2m13 xfe2m2 xmg2m4 xmg2m13 xmg2m2 : ℝ) : ℝ :=
  R * t * ((-3) * 3 / (7 * 7 * xfe2m4 * xfe2m4) + 3 * 3 / (7 * 7 * xmg2m4 * xmg2m4) - 6 * 4 / (7 * 7 * xfe2m13
    * xfe2m13) + 6 * 4 / (7 * 7 * xmg2m13 * xmg2m13) - 3 * 3 / (7 * 7 * xfe2m2 * xfe2m2) + 3 * 3 / (7 * 7 *
    xmg2m2 * xmg2m2))

/-- `D3GDR0S0S1`, amphibole.c 788-790. -/
def D3GDR0S0S1 (t xfe2m4 xfe2m13 xfe2m2 xmg2m4 xmg2m13 xmg2m2 : ℝ) : ℝ :=
  R * t * ((-3) * 2 / (7 * 7 * xfe2m4 * xfe2m4) + 3 * 2 / (7 * 7 * xmg2m4 * xmg2m4) + 6 * 2 / (7 * 7 * xfe2m13
    * xfe2m13) - 6 * 2 / (7 * 7 * xmg2m13 * xmg2m13) + 3 * 5 / (7 * 7 * xfe2m2 * xfe2m2) - 3 * 5 / (7 * 7 *
    xmg2m2 * xmg2m2))

/-- `D3GDR0S0DT`, amphibole.c 791-793. -/
def D3GDR0S0DT (r1 xfe2m4 xfe2m13 xfe2m2 xmg2m4 xmg2m13 xmg2m2 : ℝ) : ℝ :=
  R * (3 / (7 * xfe2m4) + 3 / (7 * xmg2m4) - 6 / (7 * xfe2m13) - 6 / (7 * xmg2m13) + 3 / (7 * xfe2m2) + 3 / (7
    * xmg2m2)) - SRS13 - SRPS13 * r1

/-- `D3GDR0S0DP`, amphibole.c 794. -/
def D3GDR0S0DP (r1 : ℝ) : ℝ :=
  VRS13 + VRPS13 * r1

/-- `D3GDR0S1S1`, amphibole.c 796-798. -/
def D3GDR0S1S1 (t xfe2m4 xfe2m13 xfe2m2 xmg2m4 xmg2m13 xmg2m2 : ℝ) : ℝ :=
  R * t * ((-2) * 2 / (7 * 7 * xfe2m4 * xfe2m4) + 2 * 2 / (7 * 7 * xmg2m4 * xmg2m4) - 3 * 2 / (7 * 7 * xfe2m13
    * xfe2m13) + 3 * 2 / (7 * 7 * xmg2m13 * xmg2m13) - 5 * 5 / (7 * 7 * xfe2m2 * xfe2m2) + 5 * 5 / (7 * 7 *
    xmg2m2 * xmg2m2))

/-- `D3GDR0S1DT`, amphibole.c 799-801. -/
def D3GDR0S1DT (r1 xfe2m4 xfe2m13 xfe2m2 xmg2m4 xmg2m13 xmg2m2 : ℝ) : ℝ :=
  R * (2 / (7 * xfe2m4) + 2 / (7 * xmg2m4) + 3 / (7 * xfe2m13) + 3 / (7 * xmg2m13) - 5 / (7 * xfe2m2) - 5 / (7
    * xmg2m2)) - SRS2 - SRPS2 * r1

/-- `D3GDR0S1DP`, amphibole.c 802. -/
def D3GDR0S1DP (r1 : ℝ) : ℝ :=
  VRS2 + VRPS2 * r1

/-- `D3GDR1R1R1`, amphibole.c 804. -/
def D3GDR1R1R1 (t xca2m4 xmg2m4 : ℝ) : ℝ :=
  R * t * (2 / (xmg2m4 * xmg2m4) - 2 / (xca2m4 * xca2m4)) + 6 * GPPP

/-- `D3GDR1R1S0`, amphibole.c 805. -/
def D3GDR1R1S0 (t xmg2m4 : ℝ) : ℝ :=
  R * t * (2 * 3 / (7 * xmg2m4 * xmg2m4)) + 2 * GPPS13

/-- `D3GDR1R1S1`, amphibole.c 806. -/
def D3GDR1R1S1 (t xmg2m4 : ℝ) : ℝ :=
  R * t * (2 * 2 / (7 * xmg2m4 * xmg2m4)) + 2 * GPPS2

/-- `D3GDR1R1DT`, amphibole.c 807-808. -/
def D3GDR1R1DT (r0 r1 s0 s1 xca2m4 xmg2m4 : ℝ) : ℝ :=
  R * (2 / xmg2m4 + 2 / xca2m4) - 2 * SPP - 2 * SPPS13 * s0 - 2 * SPPS2 * s1 - 2 * SRPP * r0 - 6 * SPPP * r1

/-- `D3GDR1R1DP`, amphibole.c 809-810. -/
def D3GDR1R1DP (r0 r1 s0 s1 : ℝ) : ℝ :=
  2 * VPP + 2 * VPPS13 * s0 + 2 * VPPS2 * s1 + 2 * VRPP * r0 + 6 * VPPP * r1

/-- `D3GDR1S0S0`, amphibole.c 812. -/
def D3GDR1S0S0 (t xmg2m4 : ℝ) : ℝ :=
  R * t * (6 * 3 / (7 * 7 * xmg2m4 * xmg2m4)) + 2 * GPS13S13

/-- `D3GDR1S0S1`, amphibole.c 813. -/
def D3GDR1S0S1 (t xmg2m4 : ℝ) : ℝ :=
  R * t * (6 * 2 / (7 * 7 * xmg2m4 * xmg2m4)) + GPS13S2

/-- `D3GDR1S0DT`, amphibole.c 814-816. -/
def D3GDR1S0DT (r0 r1 s0 s1 xmg2m4 : ℝ) : ℝ :=
  R * (6 / (7 * xmg2m4)) - SPS13 - 2 * SPS13S13 * s0 - 2 * SPPS13 * r1 - SRPS13 * r0 - SPS13S2 * s1

/-- `D3GDR1S0DP`, amphibole.c 817-818. -/
def D3GDR1S0DP (r0 r1 s0 s1 : ℝ) : ℝ :=
  VPS13 + 2 * VPS13S13 * s0 + 2 * VPPS13 * r1 + VRPS13 * r0 + VPS13S2 * s1

/-- `D3GDR1S1S1`, amphibole.c 820. -/
def D3GDR1S1S1 (t xmg2m4 : ℝ) : ℝ :=
  R * t * (4 * 2 / (7 * 7 * xmg2m4 * xmg2m4)) + 2 * GPS2S2

/-- `D3GDR1S1DT`, amphibole.c 821-823. -/
def D3GDR1S1DT (r0 r1 s0 s1 xmg2m4 : ℝ) : ℝ :=
  R * (4 / (7 * xmg2m4)) - SPS2 - 2 * SPPS2 * r1 - SRPS2 * r0 - 2 * SPS2S2 * s1 - SPS13S2 * s0

/-- `D3GDR1S1DP`, amphibole.c 824-825. -/
def D3GDR1S1DP (r0 r1 s0 s1 : ℝ) : ℝ :=
  VPS2 + 2 * VPPS2 * r1 + VRPS2 * r0 + 2 * VPS2S2 * s1 + VPS13S2 * s0

/-- `D3GDS0S0S0`, amphibole.c 827-829. -/
def D3GDS0S0S0 (t xfe2m4 xfe2m13 xfe2m2 xmg2m4 xmg2m13 xmg2m2 : ℝ) : ℝ :=
  R * t * ((-6) * 3 * 3 / (7 * 7 * 7 * xfe2m4 * xfe2m4) + 6 * 3 * 3 / (7 * 7 * 7 * xmg2m4 * xmg2m4) + 12 * 4 *
    4 / (7 * 7 * 7 * xfe2m13 * xfe2m13) - 12 * 4 * 4 / (7 * 7 * 7 * xmg2m13 * xmg2m13) - 6 * 3 * 3 / (7 * 7 * 7
    * xfe2m2 * xfe2m2) + 6 * 3 * 3 / (7 * 7 * 7 * xmg2m2 * xmg2m2))

/-- `D3GDS0S0S1`, amphibole.c 830-832. -/
def D3GDS0S0S1 (t xfe2m4 xfe2m13 xfe2m2 xmg2m4 xmg2m13 xmg2m2 : ℝ) : ℝ :=
  R * t * ((-6) * 3 * 2 / (7 * 7 * 7 * xfe2m4 * xfe2m4) + 6 * 3 * 2 / (7 * 7 * 7 * xmg2m4 * xmg2m4) - 12 * 4 *
    2 / (7 * 7 * 7 * xfe2m13 * xfe2m13) + 12 * 4 * 2 / (7 * 7 * 7 * xmg2m13 * xmg2m13) + 6 * 3 * 5 / (7 * 7 * 7
    * xfe2m2 * xfe2m2) - 6 * 3 * 5 / (7 * 7 * 7 * xmg2m2 * xmg2m2))

/-- `D3GDS0S0DT`, amphibole.c 833-836. -/
def D3GDS0S0DT (r1 xfe2m4 xfe2m13 xfe2m2 xmg2m4 xmg2m13 xmg2m2 : ℝ) : ℝ :=
  R * (6 * 3 / (7 * 7 * xfe2m4) + 6 * 3 / (7 * 7 * xmg2m4) + 12 * 4 / (7 * 7 * xfe2m13) + 12 * 4 / (7 * 7 *
    xmg2m13) + 6 * 3 / (7 * 7 * xfe2m2) + 6 * 3 / (7 * 7 * xmg2m2)) - 2 * SS13S13 - 2 * SPS13S13 * r1

/-- `D3GDS0S0DP`, amphibole.c 837. -/
def D3GDS0S0DP (r1 : ℝ) : ℝ :=
  2 * VS13S13 + 2 * VPS13S13 * r1

/-- `D3GDS0S1S1`, amphibole.c 839-841. -/
def D3GDS0S1S1 (t xfe2m4 xfe2m13 xfe2m2 xmg2m4 xmg2m13 xmg2m2 : ℝ) : ℝ :=
  R * t * ((-6) * 2 * 2 / (7 * 7 * 7 * xfe2m4 * xfe2m4) + 6 * 2 * 2 / (7 * 7 * 7 * xmg2m4 * xmg2m4) + 12 * 2 *
    2 / (7 * 7 * 7 * xfe2m13 * xfe2m13) - 12 * 2 * 2 / (7 * 7 * 7 * xmg2m13 * xmg2m13) - 6 * 5 * 5 / (7 * 7 * 7
    * xfe2m2 * xfe2m2) + 6 * 5 * 5 / (7 * 7 * 7 * xmg2m2 * xmg2m2))

/-- `D3GDS0S1DT`, amphibole.c 842-845. -/
def D3GDS0S1DT (r1 xfe2m4 xfe2m13 xfe2m2 xmg2m4 xmg2m13 xmg2m2 : ℝ) : ℝ :=
  R * (6 * 2 / (7 * 7 * xfe2m4) + 6 * 2 / (7 * 7 * xmg2m4) - 12 * 2 / (7 * 7 * xfe2m13) - 12 * 2 / (7 * 7 *
    xmg2m13) - 6 * 5 / (7 * 7 * xfe2m2) - 6 * 5 / (7 * 7 * xmg2m2)) - SS13S2 - SPS13S2 * r1

/-- `D3GDS0S1DP`, amphibole.c 846. -/
def D3GDS0S1DP (r1 : ℝ) : ℝ :=
  VS13S2 + VPS13S2 * r1

/-- `D3GDS0DT2`, amphibole.c 848. -/
def D3GDS0DT2 : ℝ :=
  0

/-- `D3GDS0DTDP`, amphibole.c 849. -/
def D3GDS0DTDP : ℝ :=
  0

/-- `D3GDS0DP2`, amphibole.c 850. -/
def D3GDS0DP2 : ℝ :=
  0

/-- `D3GDS1S1S1`, amphibole.c 852-854. -/
def D3GDS1S1S1 (t xfe2m4 xfe2m13 xfe2m2 xmg2m4 xmg2m13 xmg2m2 : ℝ) : ℝ :=
  R * t * ((-4) * 2 * 2 / (7 * 7 * 7 * xfe2m4 * xfe2m4) + 4 * 2 * 2 / (7 * 7 * 7 * xmg2m4 * xmg2m4) - 6 * 2 *
    2 / (7 * 7 * 7 * xfe2m13 * xfe2m13) + 6 * 2 * 2 / (7 * 7 * 7 * xmg2m13 * xmg2m13) + 10 * 5 * 5 / (7 * 7 * 7
    * xfe2m2 * xfe2m2) - 10 * 5 * 5 / (7 * 7 * 7 * xmg2m2 * xmg2m2))

/-- `D3GDS1S1DT`, amphibole.c 855-858. -/
def D3GDS1S1DT (r1 xfe2m4 xfe2m13 xfe2m2 xmg2m4 xmg2m13 xmg2m2 : ℝ) : ℝ :=
  R * (4 * 2 / (7 * 7 * xfe2m4) + 4 * 2 / (7 * 7 * xmg2m4) + 6 * 2 / (7 * 7 * xfe2m13) + 6 * 2 / (7 * 7 *
    xmg2m13) + 10 * 5 / (7 * 7 * xfe2m2) + 10 * 5 / (7 * 7 * xmg2m2)) - 2 * SS2S2 - 2 * SPS2S2 * r1

/-- `D3GDS1S1DP`, amphibole.c 859. -/
def D3GDS1S1DP (r1 : ℝ) : ℝ :=
  2 * VS2S2 + 2 * VPS2S2 * r1

/-- `D3GDS1DT2`, amphibole.c 861. -/
def D3GDS1DT2 : ℝ :=
  0

/-- `D3GDS1DTDP`, amphibole.c 862. -/
def D3GDS1DTDP : ℝ :=
  0

/-- `D3GDS1DP2`, amphibole.c 863. -/
def D3GDS1DP2 : ℝ :=
  0

/-- `D3GDT3`, amphibole.c 865. -/
def D3GDT3 : ℝ :=
  0

/-- `D3GDT2DP`, amphibole.c 866. -/
def D3GDT2DP : ℝ :=
  0

/-- `D3GDTDP2`, amphibole.c 867. -/
def D3GDTDP2 : ℝ :=
  0

/-- `D3GDP3`, amphibole.c 868. -/
def D3GDP3 : ℝ :=
  0

/-- `D3GDR0DT2`, amphibole.c 870. -/
def D3GDR0DT2 : ℝ :=
  0

/-- `D3GDR0DTDP`, amphibole.c 871. -/
def D3GDR0DTDP : ℝ :=
  0

/-- `D3GDR0DP2`, amphibole.c 872. -/
def D3GDR0DP2 : ℝ :=
  0

/-- `D3GDR1DT2`, amphibole.c 873. -/
def D3GDR1DT2 : ℝ :=
  0

/-- `D3GDR1DTDP`, amphibole.c 874. -/
def D3GDR1DTDP : ℝ :=
  0

/-- `D3GDR1DP2`, amphibole.c 875. -/
def D3GDR1DP2 : ℝ :=
  0

/-- The arrays as the functions of amphibole.c fill them (lines 881-969), for site fractions `x` and variables `y`. -/
def tables (x : Fin 7 → ℝ) (y : Var 2 2 → ℝ) : Tables 2 2 where
g := G (y (.inl iT)) (y (.inl (.inl 0))) (y (.inl (.inl 1))) (y (.inr 0)) (y (.inr 1)) (x 0) (x 1) (x 2) (x
    3) (x 4) (x 5) (x 6)
s := S (y (.inl (.inl 0))) (y (.inl (.inl 1))) (y (.inr 0)) (y (.inr 1)) (x 0) (x 1) (x 2) (x 3) (x 4) (x 5)
    (x 6)
dgdr := ![DGDR0 (y (.inl iT)) (y (.inl (.inl 0))) (y (.inl (.inl 1))) (y (.inr 0)) (y (.inr 1)) (x 1) (x 2)
    (x 3) (x 4) (x 5) (x 6), DGDR1 (y (.inl iT)) (y (.inl (.inl 0))) (y (.inl (.inl 1))) (y (.inr 0)) (y (.inr
    1)) (x 0) (x 4)]
dgds := ![DGDS0 (y (.inl iT)) (y (.inl (.inl 0))) (y (.inl (.inl 1))) (y (.inr 0)) (y (.inr 1)) (x 1) (x 2)
    (x 3) (x 4) (x 5) (x 6), DGDS1 (y (.inl iT)) (y (.inl (.inl 0))) (y (.inl (.inl 1))) (y (.inr 0)) (y (.inr
    1)) (x 1) (x 2) (x 3) (x 4) (x 5) (x 6)]
dgdt := DGDT (y (.inl (.inl 0))) (y (.inl (.inl 1))) (y (.inr 0)) (y (.inr 1)) (x 0) (x 1) (x 2) (x 3) (x 4)
    (x 5) (x 6)
dgdp := DGDP (y (.inl (.inl 0))) (y (.inl (.inl 1))) (y (.inr 0)) (y (.inr 1))
d2gdt2 := D2GDT2
d2gdtdp := D2GDTDP
d2gdp2 := D2GDP2
d3gdt3 := D3GDT3
d3gdt2dp := D3GDT2DP
d3gdtdp2 := D3GDTDP2
d3gdp3 := D3GDP3
d2gdr2 := ![![D2GDR0R0 (y (.inl iT)) (y (.inl (.inl 1))) (x 1) (x 2) (x 3) (x 4) (x 5) (x 6), D2GDR0R1 (y
    (.inl iT)) (y (.inl (.inl 0))) (y (.inl (.inl 1))) (y (.inr 0)) (y (.inr 1)) (x 4)], ![D2GDR0R1 (y (.inl
    iT)) (y (.inl (.inl 0))) (y (.inl (.inl 1))) (y (.inr 0)) (y (.inr 1)) (x 4), D2GDR1R1 (y (.inl iT)) (y
    (.inl (.inl 0))) (y (.inl (.inl 1))) (y (.inr 0)) (y (.inr 1)) (x 0) (x 4)]]
d2gdrds := ![![D2GDR0S0 (y (.inl iT)) (y (.inl (.inl 1))) (x 1) (x 2) (x 3) (x 4) (x 5) (x 6), D2GDR0S1 (y
    (.inl iT)) (y (.inl (.inl 1))) (x 1) (x 2) (x 3) (x 4) (x 5) (x 6)], ![D2GDR1S0 (y (.inl iT)) (y (.inl (.inl
    0))) (y (.inl (.inl 1))) (y (.inr 0)) (y (.inr 1)) (x 4), D2GDR1S1 (y (.inl iT)) (y (.inl (.inl 0))) (y
    (.inl (.inl 1))) (y (.inr 0)) (y (.inr 1)) (x 4)]]
d2gdrdt := ![D2GDR0DT (y (.inl (.inl 0))) (y (.inl (.inl 1))) (y (.inr 0)) (y (.inr 1)) (x 1) (x 2) (x 3) (x
    4) (x 5) (x 6), D2GDR1DT (y (.inl (.inl 0))) (y (.inl (.inl 1))) (y (.inr 0)) (y (.inr 1)) (x 0) (x 4)]
d2gdrdp := ![D2GDR0DP (y (.inl (.inl 0))) (y (.inl (.inl 1))) (y (.inr 0)) (y (.inr 1)), D2GDR1DP (y (.inl
    (.inl 0))) (y (.inl (.inl 1))) (y (.inr 0)) (y (.inr 1))]
d2gds2 := ![![D2GDS0S0 (y (.inl iT)) (y (.inl (.inl 1))) (x 1) (x 2) (x 3) (x 4) (x 5) (x 6), D2GDS0S1 (y
    (.inl iT)) (y (.inl (.inl 1))) (x 1) (x 2) (x 3) (x 4) (x 5) (x 6)], ![D2GDS0S1 (y (.inl iT)) (y (.inl (.inl
    1))) (x 1) (x 2) (x 3) (x 4) (x 5) (x 6), D2GDS1S1 (y (.inl iT)) (y (.inl (.inl 1))) (x 1) (x 2) (x 3) (x 4)
    (x 5) (x 6)]]
d2gdsdt := ![D2GDS0DT (y (.inl (.inl 0))) (y (.inl (.inl 1))) (y (.inr 0)) (y (.inr 1)) (x 1) (x 2) (x 3) (x
    4) (x 5) (x 6), D2GDS1DT (y (.inl (.inl 0))) (y (.inl (.inl 1))) (y (.inr 0)) (y (.inr 1)) (x 1) (x 2) (x 3)
    (x 4) (x 5) (x 6)]
d2gdsdp := ![D2GDS0DP (y (.inl (.inl 0))) (y (.inl (.inl 1))) (y (.inr 0)) (y (.inr 1)), D2GDS1DP (y (.inl
    (.inl 0))) (y (.inl (.inl 1))) (y (.inr 0)) (y (.inr 1))]
d3gdr3 := ![![![D3GDR0R0R0 (y (.inl iT)) (x 1) (x 2) (x 3) (x 4) (x 5) (x 6), D3GDR0R0R1 (y (.inl iT)) (x
    4)], ![D3GDR0R0R1 (y (.inl iT)) (x 4), D3GDR0R1R1 (y (.inl iT)) (x 4)]], ![![D3GDR0R0R1 (y (.inl iT)) (x 4),
    D3GDR0R1R1 (y (.inl iT)) (x 4)], ![D3GDR0R1R1 (y (.inl iT)) (x 4), D3GDR1R1R1 (y (.inl iT)) (x 0) (x 4)]]]
d3gdr2ds := ![![![D3GDR0R0S0 (y (.inl iT)) (x 1) (x 2) (x 3) (x 4) (x 5) (x 6), D3GDR0R0S1 (y (.inl iT)) (x
    1) (x 2) (x 3) (x 4) (x 5) (x 6)], ![D3GDR0R1S0 (y (.inl iT)) (x 4), D3GDR0R1S1 (y (.inl iT)) (x 4)]],
    ![![D3GDR0R1S0 (y (.inl iT)) (x 4), D3GDR0R1S1 (y (.inl iT)) (x 4)], ![D3GDR1R1S0 (y (.inl iT)) (x 4),
    D3GDR1R1S1 (y (.inl iT)) (x 4)]]]
d3gdr2dt := ![![D3GDR0R0DT (y (.inl (.inl 1))) (x 1) (x 2) (x 3) (x 4) (x 5) (x 6), D3GDR0R1DT (y (.inl
    (.inl 0))) (y (.inl (.inl 1))) (y (.inr 0)) (y (.inr 1)) (x 4)], ![D3GDR0R1DT (y (.inl (.inl 0))) (y (.inl
    (.inl 1))) (y (.inr 0)) (y (.inr 1)) (x 4), D3GDR1R1DT (y (.inl (.inl 0))) (y (.inl (.inl 1))) (y (.inr 0))
    (y (.inr 1)) (x 0) (x 4)]]
d3gdr2dp := ![![D3GDR0R0DP (y (.inl (.inl 1))), D3GDR0R1DP (y (.inl (.inl 0))) (y (.inl (.inl 1))) (y (.inr
    0)) (y (.inr 1))], ![D3GDR0R1DP (y (.inl (.inl 0))) (y (.inl (.inl 1))) (y (.inr 0)) (y (.inr 1)),
    D3GDR1R1DP (y (.inl (.inl 0))) (y (.inl (.inl 1))) (y (.inr 0)) (y (.inr 1))]]
d3gdrds2 := ![![![D3GDR0S0S0 (y (.inl iT)) (x 1) (x 2) (x 3) (x 4) (x 5) (x 6), D3GDR0S0S1 (y (.inl iT)) (x
    1) (x 2) (x 3) (x 4) (x 5) (x 6)], ![D3GDR0S0S1 (y (.inl iT)) (x 1) (x 2) (x 3) (x 4) (x 5) (x 6),
    D3GDR0S1S1 (y (.inl iT)) (x 1) (x 2) (x 3) (x 4) (x 5) (x 6)]], ![![D3GDR1S0S0 (y (.inl iT)) (x 4),
    D3GDR1S0S1 (y (.inl iT)) (x 4)], ![D3GDR1S0S1 (y (.inl iT)) (x 4), D3GDR1S1S1 (y (.inl iT)) (x 4)]]]
d3gdrdsdt := ![![D3GDR0S0DT (y (.inl (.inl 1))) (x 1) (x 2) (x 3) (x 4) (x 5) (x 6), D3GDR0S1DT (y (.inl
    (.inl 1))) (x 1) (x 2) (x 3) (x 4) (x 5) (x 6)], ![D3GDR1S0DT (y (.inl (.inl 0))) (y (.inl (.inl 1))) (y
    (.inr 0)) (y (.inr 1)) (x 4), D3GDR1S1DT (y (.inl (.inl 0))) (y (.inl (.inl 1))) (y (.inr 0)) (y (.inr 1))
    (x 4)]]
d3gdrdsdp := ![![D3GDR0S0DP (y (.inl (.inl 1))), D3GDR0S1DP (y (.inl (.inl 1)))], ![D3GDR1S0DP (y (.inl
    (.inl 0))) (y (.inl (.inl 1))) (y (.inr 0)) (y (.inr 1)), D3GDR1S1DP (y (.inl (.inl 0))) (y (.inl (.inl 1)))
    (y (.inr 0)) (y (.inr 1))]]
d3gdrdt2 := ![D3GDR0DT2, D3GDR1DT2]
d3gdrdtdp := ![D3GDR0DTDP, D3GDR1DTDP]
d3gdrdp2 := ![D3GDR0DP2, D3GDR1DP2]
d3gds3 := ![![![D3GDS0S0S0 (y (.inl iT)) (x 1) (x 2) (x 3) (x 4) (x 5) (x 6), D3GDS0S0S1 (y (.inl iT)) (x 1)
    (x 2) (x 3) (x 4) (x 5) (x 6)], ![D3GDS0S0S1 (y (.inl iT)) (x 1) (x 2) (x 3) (x 4) (x 5) (x 6), D3GDS0S1S1
    (y (.inl iT)) (x 1) (x 2) (x 3) (x 4) (x 5) (x 6)]], ![![D3GDS0S0S1 (y (.inl iT)) (x 1) (x 2) (x 3) (x 4) (x
    5) (x 6), D3GDS0S1S1 (y (.inl iT)) (x 1) (x 2) (x 3) (x 4) (x 5) (x 6)], ![D3GDS0S1S1 (y (.inl iT)) (x 1) (x
    2) (x 3) (x 4) (x 5) (x 6), D3GDS1S1S1 (y (.inl iT)) (x 1) (x 2) (x 3) (x 4) (x 5) (x 6)]]]
d3gds2dt := ![![D3GDS0S0DT (y (.inl (.inl 1))) (x 1) (x 2) (x 3) (x 4) (x 5) (x 6), D3GDS0S1DT (y (.inl
    (.inl 1))) (x 1) (x 2) (x 3) (x 4) (x 5) (x 6)], ![D3GDS0S1DT (y (.inl (.inl 1))) (x 1) (x 2) (x 3) (x 4) (x
    5) (x 6), D3GDS1S1DT (y (.inl (.inl 1))) (x 1) (x 2) (x 3) (x 4) (x 5) (x 6)]]
d3gds2dp := ![![D3GDS0S0DP (y (.inl (.inl 1))), D3GDS0S1DP (y (.inl (.inl 1)))], ![D3GDS0S1DP (y (.inl (.inl
    1))), D3GDS1S1DP (y (.inl (.inl 1)))]]
d3gdsdt2 := ![D3GDS0DT2, D3GDS1DT2]
d3gdsdtdp := ![D3GDS0DTDP, D3GDS1DTDP]
d3gdsdp2 := ![D3GDS0DP2, D3GDS1DP2]

/-- Site fractions before they are kept inside their bounds, amphibole.c 1014, 1067-1086 (those stored at the end; while iterating, 1046-1051, fractions of at most DBL_EPSILON are replaced by DBL_EPSILON). -/
def raw (y : Var 2 2 → ℝ) : Fin 7 → ℝ :=
  ![(y (.inl (.inl 1))), (1 + (y (.inl (.inl 0))) + 6 * (y (.inr 0)) / 7 + 4 * (y (.inr 1)) / 7) / 2, (1 + (y
    (.inl (.inl 0))) - 8 * (y (.inr 0)) / 7 + 4 * (y (.inr 1)) / 7) / 2, (1 + (y (.inl (.inl 0))) + 6 * (y (.inr
    0)) / 7 - 10 * (y (.inr 1)) / 7) / 2, 1 - (1 + (y (.inl (.inl 0))) + 6 * (y (.inr 0)) / 7 + 4 * (y (.inr 1))
    / 7) / 2 - (y (.inl (.inl 1))), 1 - (1 + (y (.inl (.inl 0))) - 8 * (y (.inr 0)) / 7 + 4 * (y (.inr 1)) / 7)
    / 2, 1 - (1 + (y (.inl (.inl 0))) + 6 * (y (.inr 0)) / 7 - 10 * (y (.inr 1)) / 7) / 2]

/-- Bounds applied to the site fractions, amphibole.c 1014, 1067-1086 (those stored at the end; while iterating, 1046-1051, fractions of at most DBL_EPSILON are replaced by DBL_EPSILON). -/
def site (y : Var 2 2 → ℝ) : Fin 7 → ℝ :=
  ![raw y 0, raw y 1, raw y 2, raw y 3, raw y 4, raw y 5, raw y 6]

/-- The macros of amphibole.c at given composition, conditions and ordering state. -/
def macros (y : Var 2 2 → ℝ) : Tables 2 2 := tables (site y) y

/-- Where no bound on the site fractions is active. -/
def Dom (y : Var 2 2 → ℝ) : Prop :=
  (0 < raw y 0) ∧ (0 < raw y 1) ∧ (0 < raw y 2) ∧ (0 < raw y 3) ∧ (0 < raw y 4) ∧ (0 < raw y 5) ∧ (0 < raw y
    6)

lemma hl (y u : Var 2 2 → ℝ) (i : Var 2 2) : HasDerivAt (fun v : ℝ => y i + v * u i) (u i) 0 := by
  simpa using ((hasDerivAt_id' (0 : ℝ)).mul_const (u i)).const_add (y i)

lemma raw_line0 (y u : Var 2 2 → ℝ) : HasDerivAt (fun v : ℝ => raw (fun i => y i + v * u i) 0)
    (1 * u (.inl (.inl 1))) 0 := by
  have hr0 := hl y u ((.inl (.inl 0)))
  have hr1 := hl y u ((.inl (.inl 1)))
  have hs0 := hl y u ((.inr 0))
  have hs1 := hl y u ((.inr 1))
  change HasDerivAt (fun v : ℝ => (y (.inl (.inl 1)) + v * u (.inl (.inl 1)))) _ 0
  refine HasDerivAt.congr_deriv (by hdo) ?_
  ring

lemma raw_line1 (y u : Var 2 2 → ℝ) : HasDerivAt (fun v : ℝ => raw (fun i => y i + v * u i) 1)
    ((1 / 2) * u (.inl (.inl 0)) + (3 / 7) * u (.inr 0) + (2 / 7) * u (.inr 1)) 0 := by
  have hr0 := hl y u ((.inl (.inl 0)))
  have hr1 := hl y u ((.inl (.inl 1)))
  have hs0 := hl y u ((.inr 0))
  have hs1 := hl y u ((.inr 1))
  change HasDerivAt (fun v : ℝ => (1 + (y (.inl (.inl 0)) + v * u (.inl (.inl 0))) + 6 * (y (.inr 0) + v * u (.inr 0)) / 7 + 4 * (y (.inr 1) +
    v * u (.inr 1)) / 7) / 2) _ 0
  refine HasDerivAt.congr_deriv (by hdo) ?_
  ring

lemma raw_line2 (y u : Var 2 2 → ℝ) : HasDerivAt (fun v : ℝ => raw (fun i => y i + v * u i) 2)
    ((1 / 2) * u (.inl (.inl 0)) + (-(4) / 7) * u (.inr 0) + (2 / 7) * u (.inr 1)) 0 := by
  have hr0 := hl y u ((.inl (.inl 0)))
  have hr1 := hl y u ((.inl (.inl 1)))
  have hs0 := hl y u ((.inr 0))
  have hs1 := hl y u ((.inr 1))
  change HasDerivAt (fun v : ℝ => (1 + (y (.inl (.inl 0)) + v * u (.inl (.inl 0))) - 8 * (y (.inr 0) + v * u (.inr 0)) / 7 + 4 * (y (.inr 1) +
    v * u (.inr 1)) / 7) / 2) _ 0
  refine HasDerivAt.congr_deriv (by hdo) ?_
  ring

lemma raw_line3 (y u : Var 2 2 → ℝ) : HasDerivAt (fun v : ℝ => raw (fun i => y i + v * u i) 3)
    ((1 / 2) * u (.inl (.inl 0)) + (3 / 7) * u (.inr 0) + (-(5) / 7) * u (.inr 1)) 0 := by
  have hr0 := hl y u ((.inl (.inl 0)))
  have hr1 := hl y u ((.inl (.inl 1)))
  have hs0 := hl y u ((.inr 0))
  have hs1 := hl y u ((.inr 1))
  change HasDerivAt (fun v : ℝ => (1 + (y (.inl (.inl 0)) + v * u (.inl (.inl 0))) + 6 * (y (.inr 0) + v * u (.inr 0)) / 7 - 10 * (y (.inr 1)
    + v * u (.inr 1)) / 7) / 2) _ 0
  refine HasDerivAt.congr_deriv (by hdo) ?_
  ring

lemma raw_line4 (y u : Var 2 2 → ℝ) : HasDerivAt (fun v : ℝ => raw (fun i => y i + v * u i) 4)
    ((-(1) / 2) * u (.inl (.inl 0)) + (-1) * u (.inl (.inl 1)) + (-(3) / 7) * u (.inr 0) + (-(2) / 7) * u (.inr 1)) 0 := by
  have hr0 := hl y u ((.inl (.inl 0)))
  have hr1 := hl y u ((.inl (.inl 1)))
  have hs0 := hl y u ((.inr 0))
  have hs1 := hl y u ((.inr 1))
  change HasDerivAt (fun v : ℝ => 1 - (1 + (y (.inl (.inl 0)) + v * u (.inl (.inl 0))) + 6 * (y (.inr 0) + v * u (.inr 0)) / 7 + 4 * (y (.inr
    1) + v * u (.inr 1)) / 7) / 2 - (y (.inl (.inl 1)) + v * u (.inl (.inl 1)))) _ 0
  refine HasDerivAt.congr_deriv (by hdo) ?_
  ring

lemma raw_line5 (y u : Var 2 2 → ℝ) : HasDerivAt (fun v : ℝ => raw (fun i => y i + v * u i) 5)
    ((-(1) / 2) * u (.inl (.inl 0)) + (4 / 7) * u (.inr 0) + (-(2) / 7) * u (.inr 1)) 0 := by
  have hr0 := hl y u ((.inl (.inl 0)))
  have hr1 := hl y u ((.inl (.inl 1)))
  have hs0 := hl y u ((.inr 0))
  have hs1 := hl y u ((.inr 1))
  change HasDerivAt (fun v : ℝ => 1 - (1 + (y (.inl (.inl 0)) + v * u (.inl (.inl 0))) - 8 * (y (.inr 0) + v * u (.inr 0)) / 7 + 4 * (y (.inr
    1) + v * u (.inr 1)) / 7) / 2) _ 0
  refine HasDerivAt.congr_deriv (by hdo) ?_
  ring

lemma raw_line6 (y u : Var 2 2 → ℝ) : HasDerivAt (fun v : ℝ => raw (fun i => y i + v * u i) 6)
    ((-(1) / 2) * u (.inl (.inl 0)) + (-(3) / 7) * u (.inr 0) + (5 / 7) * u (.inr 1)) 0 := by
  have hr0 := hl y u ((.inl (.inl 0)))
  have hr1 := hl y u ((.inl (.inl 1)))
  have hs0 := hl y u ((.inr 0))
  have hs1 := hl y u ((.inr 1))
  change HasDerivAt (fun v : ℝ => 1 - (1 + (y (.inl (.inl 0)) + v * u (.inl (.inl 0))) + 6 * (y (.inr 0) + v * u (.inr 0)) / 7 - 10 * (y (.inr
    1) + v * u (.inr 1)) / 7) / 2) _ 0
  refine HasDerivAt.congr_deriv (by hdo) ?_
  ring

lemma raw_diff (k : Fin 7) (y : Var 2 2 → ℝ) : DifferentiableAt ℝ (fun y => raw y k) y := by
  fin_cases k
  · change DifferentiableAt ℝ (fun y : Var 2 2 → ℝ => (y (.inl (.inl 1)))) y; ddo
  · change DifferentiableAt ℝ (fun y : Var 2 2 → ℝ => (1 + (y (.inl (.inl 0))) + 6 * (y (.inr 0)) / 7 + 4 * (y (.inr 1)) / 7) / 2) y; ddo
  · change DifferentiableAt ℝ (fun y : Var 2 2 → ℝ => (1 + (y (.inl (.inl 0))) - 8 * (y (.inr 0)) / 7 + 4 * (y (.inr 1)) / 7) / 2) y; ddo
  · change DifferentiableAt ℝ (fun y : Var 2 2 → ℝ => (1 + (y (.inl (.inl 0))) + 6 * (y (.inr 0)) / 7 - 10 * (y (.inr 1)) / 7) / 2) y; ddo
  · change DifferentiableAt ℝ (fun y : Var 2 2 → ℝ => 1 - (1 + (y (.inl (.inl 0))) + 6 * (y (.inr 0)) / 7 + 4 * (y (.inr 1)) / 7) / 2 - (y (.inl (.inl 1)))) y; ddo
  · change DifferentiableAt ℝ (fun y : Var 2 2 → ℝ => 1 - (1 + (y (.inl (.inl 0))) - 8 * (y (.inr 0)) / 7 + 4 * (y (.inr 1)) / 7) / 2) y; ddo
  · change DifferentiableAt ℝ (fun y : Var 2 2 → ℝ => 1 - (1 + (y (.inl (.inl 0))) + 6 * (y (.inr 0)) / 7 - 10 * (y (.inr 1)) / 7) / 2) y; ddo

lemma pos (y : Var 2 2 → ℝ) (hy : Dom y) :
    0 < raw y 0 ∧ 0 < raw y 1 ∧ 0 < raw y 2 ∧ 0 < raw y 3 ∧ 0 < raw y 4 ∧ 0 < raw y 5 ∧ 0 < raw y 6 := by
  have he := dblEps_pos
  obtain ⟨h0, h1, h2, h3, h4, h5, h6⟩ := hy
  refine ⟨?_, ?_, ?_, ?_, ?_, ?_, ?_⟩ <;> first | linarith | assumption

lemma c_G {t p r0 r1 s0 s1 xca2m4 xfe2m4 xfe2m13 xfe2m2 xmg2m4 xmg2m13 xmg2m2 : ℝ → ℝ} {v dt dp dr0 dr1 ds0 ds1 : ℝ}
    (ht : HasDerivAt t dt v) (hp : HasDerivAt p dp v) (hr0 : HasDerivAt r0 dr0 v) (hr1 : HasDerivAt r1 dr1 v)
    (hs0 : HasDerivAt s0 ds0 v) (hs1 : HasDerivAt s1 ds1 v) (hxca2m4 : HasDerivAt xca2m4 (1 * dr1) v) (pxca2m4 :
    0 < xca2m4 v) (hxfe2m4 : HasDerivAt xfe2m4 ((1 / 2) * dr0 + (3 / 7) * ds0 + (2 / 7) * ds1) v) (pxfe2m4 : 0 <
    xfe2m4 v) (hxfe2m13 : HasDerivAt xfe2m13 ((1 / 2) * dr0 + (-(4) / 7) * ds0 + (2 / 7) * ds1) v) (pxfe2m13 : 0
    < xfe2m13 v) (hxfe2m2 : HasDerivAt xfe2m2 ((1 / 2) * dr0 + (3 / 7) * ds0 + (-(5) / 7) * ds1) v) (pxfe2m2 : 0
    < xfe2m2 v) (hxmg2m4 : HasDerivAt xmg2m4 ((-(1) / 2) * dr0 + (-1) * dr1 + (-(3) / 7) * ds0 + (-(2) / 7) *
    ds1) v) (pxmg2m4 : 0 < xmg2m4 v) (hxmg2m13 : HasDerivAt xmg2m13 ((-(1) / 2) * dr0 + (4 / 7) * ds0 + (-(2) /
    7) * ds1) v) (pxmg2m13 : 0 < xmg2m13 v) (hxmg2m2 : HasDerivAt xmg2m2 ((-(1) / 2) * dr0 + (-(3) / 7) * ds0 +
    (5 / 7) * ds1) v) (pxmg2m2 : 0 < xmg2m2 v) :
    HasDerivAt (fun v => G (t v) (r0 v) (r1 v) (s0 v) (s1 v) (xca2m4 v) (xfe2m4 v) (xfe2m13 v) (xfe2m2 v) (xmg2m4 v) (xmg2m13 v) (xmg2m2 v))
    (((DGDR0 (t v) (r0 v) (r1 v) (s0 v) (s1 v) (xfe2m4 v) (xfe2m13 v) (xfe2m2 v) (xmg2m4 v) (xmg2m13 v) (xmg2m2
    v)) * dr0 + (DGDR1 (t v) (r0 v) (r1 v) (s0 v) (s1 v) (xca2m4 v) (xmg2m4 v)) * dr1) + ((DGDT (r0 v) (r1 v)
    (s0 v) (s1 v) (xca2m4 v) (xfe2m4 v) (xfe2m13 v) (xfe2m2 v) (xmg2m4 v) (xmg2m13 v) (xmg2m2 v)) * dt + (DGDP
    (r0 v) (r1 v) (s0 v) (s1 v)) * dp) + ((DGDS0 (t v) (r0 v) (r1 v) (s0 v) (s1 v) (xfe2m4 v) (xfe2m13 v)
    (xfe2m2 v) (xmg2m4 v) (xmg2m13 v) (xmg2m2 v)) * ds0 + (DGDS1 (t v) (r0 v) (r1 v) (s0 v) (s1 v) (xfe2m4 v)
    (xfe2m13 v) (xfe2m2 v) (xmg2m4 v) (xmg2m13 v) (xmg2m2 v)) * ds1)) v := by
  have nxca2m4 := pxca2m4.ne'
  have nxfe2m4 := pxfe2m4.ne'
  have nxfe2m13 := pxfe2m13.ne'
  have nxfe2m2 := pxfe2m2.ne'
  have nxmg2m4 := pxmg2m4.ne'
  have nxmg2m13 := pxmg2m13.ne'
  have nxmg2m2 := pxmg2m2.ne'
  try simp only [SIC, G1, G2, cW123, W123, cW4, W4, cGX123_4, GX123_4, G0, GR, GEX, GDEX, GS13, GS2, GRR, cDZ, DZ, GRS13, GRS2, cGX13_24, GX13_24, GS13S13, cGX134_2, GX134_2, GS13S2, GS2S2, G3, cWCAFE, WCAFE, cWCAMG, WCAMG, cGXCA_13, GXCA_13, cGXCA_2, GXCA_2, cDWCAFE, DWCAFE, cDWCAMG, DWCAMG, GP, GRP, GPS13, GPS2, GPP, GPS13S13, GPPS13, GPPS2, GRPS13, GRPS2, GPS2S2, GPS13S2, GRRP, GRPP, GPPP, G, S1, S2, S0, SR, SS13, SS2, SRR, SRS13, SRS2, SS13S13, SS13S2, SS2S2, S3, SP, SRP, SPS13, SPS2, SPP, SPS13S13, SPPS13, SPPS2, SRPS13, SRPS2, SPS2S2, SPS13S2, SRRP, SRPP, SPPP, S, DGDT, V1, V2, V0, VR, VS13, VS2, VRR, VRS13, VRS2, VS13S13, VS13S2, VS2S2, V3, VP, VRP, VPS13, VPS2, VPP, VPS13S13, VPPS13, VPPS2, VRPS13, VRPS2, VPS2S2, VPS13S2, VRRP, VRPP, VPPP, V, DGDP, DGDR0, DGDR1, DGDS0, DGDS1, zero_mul, mul_zero, add_zero, zero_add, sub_zero]
  refine HasDerivAt.congr_deriv (by hdo) ?_
  ring

lemma c_DGDR0 {t p r0 r1 s0 s1 xfe2m4 xfe2m13 xfe2m2 xmg2m4 xmg2m13 xmg2m2 : ℝ → ℝ} {v dt dp dr0 dr1 ds0 ds1 : ℝ} (ht :
    HasDerivAt t dt v) (hp : HasDerivAt p dp v) (hr0 : HasDerivAt r0 dr0 v) (hr1 : HasDerivAt r1 dr1 v) (hs0 :
    HasDerivAt s0 ds0 v) (hs1 : HasDerivAt s1 ds1 v) (hxfe2m4 : HasDerivAt xfe2m4 ((1 / 2) * dr0 + (3 / 7) * ds0
    + (2 / 7) * ds1) v) (pxfe2m4 : 0 < xfe2m4 v) (hxfe2m13 : HasDerivAt xfe2m13 ((1 / 2) * dr0 + (-(4) / 7) *
    ds0 + (2 / 7) * ds1) v) (pxfe2m13 : 0 < xfe2m13 v) (hxfe2m2 : HasDerivAt xfe2m2 ((1 / 2) * dr0 + (3 / 7) *
    ds0 + (-(5) / 7) * ds1) v) (pxfe2m2 : 0 < xfe2m2 v) (hxmg2m4 : HasDerivAt xmg2m4 ((-(1) / 2) * dr0 + (-1) *
    dr1 + (-(3) / 7) * ds0 + (-(2) / 7) * ds1) v) (pxmg2m4 : 0 < xmg2m4 v) (hxmg2m13 : HasDerivAt xmg2m13 ((-(1)
    / 2) * dr0 + (4 / 7) * ds0 + (-(2) / 7) * ds1) v) (pxmg2m13 : 0 < xmg2m13 v) (hxmg2m2 : HasDerivAt xmg2m2
    ((-(1) / 2) * dr0 + (-(3) / 7) * ds0 + (5 / 7) * ds1) v) (pxmg2m2 : 0 < xmg2m2 v) :
    HasDerivAt (fun v => DGDR0 (t v) (r0 v) (r1 v) (s0 v) (s1 v) (xfe2m4 v) (xfe2m13 v) (xfe2m2 v) (xmg2m4 v) (xmg2m13 v) (xmg2m2 v))
    (((D2GDR0R0 (t v) (r1 v) (xfe2m4 v) (xfe2m13 v) (xfe2m2 v) (xmg2m4 v) (xmg2m13 v) (xmg2m2 v)) * dr0 +
    (D2GDR0R1 (t v) (r0 v) (r1 v) (s0 v) (s1 v) (xmg2m4 v)) * dr1) + ((D2GDR0DT (r0 v) (r1 v) (s0 v) (s1 v)
    (xfe2m4 v) (xfe2m13 v) (xfe2m2 v) (xmg2m4 v) (xmg2m13 v) (xmg2m2 v)) * dt + (D2GDR0DP (r0 v) (r1 v) (s0 v)
    (s1 v)) * dp) + ((D2GDR0S0 (t v) (r1 v) (xfe2m4 v) (xfe2m13 v) (xfe2m2 v) (xmg2m4 v) (xmg2m13 v) (xmg2m2 v))
    * ds0 + (D2GDR0S1 (t v) (r1 v) (xfe2m4 v) (xfe2m13 v) (xfe2m2 v) (xmg2m4 v) (xmg2m13 v) (xmg2m2 v)) * ds1)) v := by
  have nxfe2m4 := pxfe2m4.ne'
  have nxfe2m13 := pxfe2m13.ne'
  have nxfe2m2 := pxfe2m2.ne'
  have nxmg2m4 := pxmg2m4.ne'
  have nxmg2m13 := pxmg2m13.ne'
  have nxmg2m2 := pxmg2m2.ne'
  try simp only [G1, G2, GR, cW123, W123, cW4, W4, cGX123_4, GX123_4, GRR, cDZ, DZ, GRS13, GRS2, cWCAFE, WCAFE, cWCAMG, WCAMG, cGXCA_13, GXCA_13, cGXCA_2, GXCA_2, cDWCAFE, DWCAFE, cDWCAMG, DWCAMG, GRP, GRPS13, GRPS2, GRRP, GRPP, DGDR0, S1, S2, SR, SRR, SRS13, SRS2, SRP, SRPS13, SRPS2, SRRP, SRPP, D2GDR0DT, V1, V2, VR, VRR, VRS13, VRS2, VRP, VRPS13, VRPS2, VRRP, VRPP, D2GDR0DP, D2GDR0R0, D2GDR0R1, D2GDR0S0, D2GDR0S1, zero_mul, mul_zero, add_zero, zero_add, sub_zero]
  refine HasDerivAt.congr_deriv (by hdo) ?_
  ring

lemma c_DGDR1 {t p r0 r1 s0 s1 xca2m4 xmg2m4 : ℝ → ℝ} {v dt dp dr0 dr1 ds0 ds1 : ℝ} (ht : HasDerivAt t dt v) (hp :
    HasDerivAt p dp v) (hr0 : HasDerivAt r0 dr0 v) (hr1 : HasDerivAt r1 dr1 v) (hs0 : HasDerivAt s0 ds0 v) (hs1
    : HasDerivAt s1 ds1 v) (hxca2m4 : HasDerivAt xca2m4 (1 * dr1) v) (pxca2m4 : 0 < xca2m4 v) (hxmg2m4 :
    HasDerivAt xmg2m4 ((-(1) / 2) * dr0 + (-1) * dr1 + (-(3) / 7) * ds0 + (-(2) / 7) * ds1) v) (pxmg2m4 : 0 <
    xmg2m4 v) :
    HasDerivAt (fun v => DGDR1 (t v) (r0 v) (r1 v) (s0 v) (s1 v) (xca2m4 v) (xmg2m4 v))
    (((D2GDR0R1 (t v) (r0 v) (r1 v) (s0 v) (s1 v) (xmg2m4 v)) * dr0 + (D2GDR1R1 (t v) (r0 v) (r1 v) (s0 v) (s1 v)
    (xca2m4 v) (xmg2m4 v)) * dr1) + ((D2GDR1DT (r0 v) (r1 v) (s0 v) (s1 v) (xca2m4 v) (xmg2m4 v)) * dt +
    (D2GDR1DP (r0 v) (r1 v) (s0 v) (s1 v)) * dp) + ((D2GDR1S0 (t v) (r0 v) (r1 v) (s0 v) (s1 v) (xmg2m4 v)) *
    ds0 + (D2GDR1S1 (t v) (r0 v) (r1 v) (s0 v) (s1 v) (xmg2m4 v)) * ds1)) v := by
  have nxca2m4 := pxca2m4.ne'
  have nxmg2m4 := pxmg2m4.ne'
  try simp only [G1, G3, cW4, W4, cWCAFE, WCAFE, cWCAMG, WCAMG, cGXCA_13, GXCA_13, cGXCA_2, GXCA_2, cDWCAFE, DWCAFE, cDWCAMG, DWCAMG, GP, GRP, GPS13, GPS2, GPP, GPS13S13, GPPS13, GPPS2, GRPS13, GRPS2, GPS2S2, GPS13S2, GRRP, GRPP, GPPP, DGDR1, S1, S3, SP, SRP, SPS13, SPS2, SPP, SPS13S13, SPPS13, SPPS2, SRPS13, SRPS2, SPS2S2, SPS13S2, SRRP, SRPP, SPPP, D2GDR1DT, V1, V3, VP, VRP, VPS13, VPS2, VPP, VPS13S13, VPPS13, VPPS2, VRPS13, VRPS2, VPS2S2, VPS13S2, VRRP, VRPP, VPPP, D2GDR1DP, D2GDR0R1, D2GDR1R1, D2GDR1S0, D2GDR1S1, zero_mul, mul_zero, add_zero, zero_add, sub_zero]
  refine HasDerivAt.congr_deriv (by hdo) ?_
  ring

lemma c_DGDS0 {t p r0 r1 s0 s1 xfe2m4 xfe2m13 xfe2m2 xmg2m4 xmg2m13 xmg2m2 : ℝ → ℝ} {v dt dp dr0 dr1 ds0 ds1 : ℝ} (ht :
    HasDerivAt t dt v) (hp : HasDerivAt p dp v) (hr0 : HasDerivAt r0 dr0 v) (hr1 : HasDerivAt r1 dr1 v) (hs0 :
    HasDerivAt s0 ds0 v) (hs1 : HasDerivAt s1 ds1 v) (hxfe2m4 : HasDerivAt xfe2m4 ((1 / 2) * dr0 + (3 / 7) * ds0
    + (2 / 7) * ds1) v) (pxfe2m4 : 0 < xfe2m4 v) (hxfe2m13 : HasDerivAt xfe2m13 ((1 / 2) * dr0 + (-(4) / 7) *
    ds0 + (2 / 7) * ds1) v) (pxfe2m13 : 0 < xfe2m13 v) (hxfe2m2 : HasDerivAt xfe2m2 ((1 / 2) * dr0 + (3 / 7) *
    ds0 + (-(5) / 7) * ds1) v) (pxfe2m2 : 0 < xfe2m2 v) (hxmg2m4 : HasDerivAt xmg2m4 ((-(1) / 2) * dr0 + (-1) *
    dr1 + (-(3) / 7) * ds0 + (-(2) / 7) * ds1) v) (pxmg2m4 : 0 < xmg2m4 v) (hxmg2m13 : HasDerivAt xmg2m13 ((-(1)
    / 2) * dr0 + (4 / 7) * ds0 + (-(2) / 7) * ds1) v) (pxmg2m13 : 0 < xmg2m13 v) (hxmg2m2 : HasDerivAt xmg2m2
    ((-(1) / 2) * dr0 + (-(3) / 7) * ds0 + (5 / 7) * ds1) v) (pxmg2m2 : 0 < xmg2m2 v) :
    HasDerivAt (fun v => DGDS0 (t v) (r0 v) (r1 v) (s0 v) (s1 v) (xfe2m4 v) (xfe2m13 v) (xfe2m2 v) (xmg2m4 v) (xmg2m13 v) (xmg2m2 v))
    (((D2GDR0S0 (t v) (r1 v) (xfe2m4 v) (xfe2m13 v) (xfe2m2 v) (xmg2m4 v) (xmg2m13 v) (xmg2m2 v)) * dr0 +
    (D2GDR1S0 (t v) (r0 v) (r1 v) (s0 v) (s1 v) (xmg2m4 v)) * dr1) + ((D2GDS0DT (r0 v) (r1 v) (s0 v) (s1 v)
    (xfe2m4 v) (xfe2m13 v) (xfe2m2 v) (xmg2m4 v) (xmg2m13 v) (xmg2m2 v)) * dt + (D2GDS0DP (r0 v) (r1 v) (s0 v)
    (s1 v)) * dp) + ((D2GDS0S0 (t v) (r1 v) (xfe2m4 v) (xfe2m13 v) (xfe2m2 v) (xmg2m4 v) (xmg2m13 v) (xmg2m2 v))
    * ds0 + (D2GDS0S1 (t v) (r1 v) (xfe2m4 v) (xfe2m13 v) (xfe2m2 v) (xmg2m4 v) (xmg2m13 v) (xmg2m2 v)) * ds1)) v := by
  have nxfe2m4 := pxfe2m4.ne'
  have nxfe2m13 := pxfe2m13.ne'
  have nxfe2m2 := pxfe2m2.ne'
  have nxmg2m4 := pxmg2m4.ne'
  have nxmg2m13 := pxmg2m13.ne'
  have nxmg2m2 := pxmg2m2.ne'
  try simp only [GEX, GDEX, GS13, cW123, W123, cW4, W4, cGX123_4, GX123_4, cDZ, DZ, GRS13, cGX13_24, GX13_24, GS13S13, cGX134_2, GX134_2, GS13S2, cWCAFE, WCAFE, cWCAMG, WCAMG, cGXCA_13, GXCA_13, cGXCA_2, GXCA_2, cDWCAFE, DWCAFE, cDWCAMG, DWCAMG, GPS13, GPS13S13, GPPS13, GRPS13, GPS13S2, DGDS0, SS13, SRS13, SS13S13, SS13S2, SPS13, SPS13S13, SPPS13, SRPS13, SPS13S2, D2GDS0DT, VS13, VRS13, VS13S13, VS13S2, VPS13, VPS13S13, VPPS13, VRPS13, VPS13S2, D2GDS0DP, D2GDR0S0, D2GDR1S0, D2GDS0S0, D2GDS0S1, zero_mul, mul_zero, add_zero, zero_add, sub_zero]
  refine HasDerivAt.congr_deriv (by hdo) ?_
  ring

lemma c_DGDS1 {t p r0 r1 s0 s1 xfe2m4 xfe2m13 xfe2m2 xmg2m4 xmg2m13 xmg2m2 : ℝ → ℝ} {v dt dp dr0 dr1 ds0 ds1 : ℝ} (ht :
    HasDerivAt t dt v) (hp : HasDerivAt p dp v) (hr0 : HasDerivAt r0 dr0 v) (hr1 : HasDerivAt r1 dr1 v) (hs0 :
    HasDerivAt s0 ds0 v) (hs1 : HasDerivAt s1 ds1 v) (hxfe2m4 : HasDerivAt xfe2m4 ((1 / 2) * dr0 + (3 / 7) * ds0
    + (2 / 7) * ds1) v) (pxfe2m4 : 0 < xfe2m4 v) (hxfe2m13 : HasDerivAt xfe2m13 ((1 / 2) * dr0 + (-(4) / 7) *
    ds0 + (2 / 7) * ds1) v) (pxfe2m13 : 0 < xfe2m13 v) (hxfe2m2 : HasDerivAt xfe2m2 ((1 / 2) * dr0 + (3 / 7) *
    ds0 + (-(5) / 7) * ds1) v) (pxfe2m2 : 0 < xfe2m2 v) (hxmg2m4 : HasDerivAt xmg2m4 ((-(1) / 2) * dr0 + (-1) *
    dr1 + (-(3) / 7) * ds0 + (-(2) / 7) * ds1) v) (pxmg2m4 : 0 < xmg2m4 v) (hxmg2m13 : HasDerivAt xmg2m13 ((-(1)
    / 2) * dr0 + (4 / 7) * ds0 + (-(2) / 7) * ds1) v) (pxmg2m13 : 0 < xmg2m13 v) (hxmg2m2 : HasDerivAt xmg2m2
    ((-(1) / 2) * dr0 + (-(3) / 7) * ds0 + (5 / 7) * ds1) v) (pxmg2m2 : 0 < xmg2m2 v) :
    HasDerivAt (fun v => DGDS1 (t v) (r0 v) (r1 v) (s0 v) (s1 v) (xfe2m4 v) (xfe2m13 v) (xfe2m2 v) (xmg2m4 v) (xmg2m13 v) (xmg2m2 v))
    (((D2GDR0S1 (t v) (r1 v) (xfe2m4 v) (xfe2m13 v) (xfe2m2 v) (xmg2m4 v) (xmg2m13 v) (xmg2m2 v)) * dr0 +
    (D2GDR1S1 (t v) (r0 v) (r1 v) (s0 v) (s1 v) (xmg2m4 v)) * dr1) + ((D2GDS1DT (r0 v) (r1 v) (s0 v) (s1 v)
    (xfe2m4 v) (xfe2m13 v) (xfe2m2 v) (xmg2m4 v) (xmg2m13 v) (xmg2m2 v)) * dt + (D2GDS1DP (r0 v) (r1 v) (s0 v)
    (s1 v)) * dp) + ((D2GDS0S1 (t v) (r1 v) (xfe2m4 v) (xfe2m13 v) (xfe2m2 v) (xmg2m4 v) (xmg2m13 v) (xmg2m2 v))
    * ds0 + (D2GDS1S1 (t v) (r1 v) (xfe2m4 v) (xfe2m13 v) (xfe2m2 v) (xmg2m4 v) (xmg2m13 v) (xmg2m2 v)) * ds1)) v := by
  have nxfe2m4 := pxfe2m4.ne'
  have nxfe2m13 := pxfe2m13.ne'
  have nxfe2m2 := pxfe2m2.ne'
  have nxmg2m4 := pxmg2m4.ne'
  have nxmg2m13 := pxmg2m13.ne'
  have nxmg2m2 := pxmg2m2.ne'
  try simp only [GEX, GDEX, GS2, cW123, W123, cW4, W4, cGX123_4, GX123_4, cDZ, DZ, GRS2, cGX13_24, GX13_24, cGX134_2, GX134_2, GS13S2, GS2S2, cWCAFE, WCAFE, cWCAMG, WCAMG, cGXCA_13, GXCA_13, cGXCA_2, GXCA_2, cDWCAFE, DWCAFE, cDWCAMG, DWCAMG, GPS2, GPPS2, GRPS2, GPS2S2, GPS13S2, DGDS1, SS2, SRS2, SS13S2, SS2S2, SPS2, SPPS2, SRPS2, SPS2S2, SPS13S2, D2GDS1DT, VS2, VRS2, VS13S2, VS2S2, VPS2, VPPS2, VRPS2, VPS2S2, VPS13S2, D2GDS1DP, D2GDR0S1, D2GDR1S1, D2GDS0S1, D2GDS1S1, zero_mul, mul_zero, add_zero, zero_add, sub_zero]
  refine HasDerivAt.congr_deriv (by hdo) ?_
  ring

lemma c_DGDT {t p r0 r1 s0 s1 xca2m4 xfe2m4 xfe2m13 xfe2m2 xmg2m4 xmg2m13 xmg2m2 : ℝ → ℝ} {v dt dp dr0 dr1 ds0 ds1 : ℝ}
    (ht : HasDerivAt t dt v) (hp : HasDerivAt p dp v) (hr0 : HasDerivAt r0 dr0 v) (hr1 : HasDerivAt r1 dr1 v)
    (hs0 : HasDerivAt s0 ds0 v) (hs1 : HasDerivAt s1 ds1 v) (hxca2m4 : HasDerivAt xca2m4 (1 * dr1) v) (pxca2m4 :
    0 < xca2m4 v) (hxfe2m4 : HasDerivAt xfe2m4 ((1 / 2) * dr0 + (3 / 7) * ds0 + (2 / 7) * ds1) v) (pxfe2m4 : 0 <
    xfe2m4 v) (hxfe2m13 : HasDerivAt xfe2m13 ((1 / 2) * dr0 + (-(4) / 7) * ds0 + (2 / 7) * ds1) v) (pxfe2m13 : 0
    < xfe2m13 v) (hxfe2m2 : HasDerivAt xfe2m2 ((1 / 2) * dr0 + (3 / 7) * ds0 + (-(5) / 7) * ds1) v) (pxfe2m2 : 0
    < xfe2m2 v) (hxmg2m4 : HasDerivAt xmg2m4 ((-(1) / 2) * dr0 + (-1) * dr1 + (-(3) / 7) * ds0 + (-(2) / 7) *
    ds1) v) (pxmg2m4 : 0 < xmg2m4 v) (hxmg2m13 : HasDerivAt xmg2m13 ((-(1) / 2) * dr0 + (4 / 7) * ds0 + (-(2) /
    7) * ds1) v) (pxmg2m13 : 0 < xmg2m13 v) (hxmg2m2 : HasDerivAt xmg2m2 ((-(1) / 2) * dr0 + (-(3) / 7) * ds0 +
    (5 / 7) * ds1) v) (pxmg2m2 : 0 < xmg2m2 v) :
    HasDerivAt (fun v => DGDT (r0 v) (r1 v) (s0 v) (s1 v) (xca2m4 v) (xfe2m4 v) (xfe2m13 v) (xfe2m2 v) (xmg2m4 v) (xmg2m13 v) (xmg2m2 v))
    (((D2GDR0DT (r0 v) (r1 v) (s0 v) (s1 v) (xfe2m4 v) (xfe2m13 v) (xfe2m2 v) (xmg2m4 v) (xmg2m13 v) (xmg2m2 v))
    * dr0 + (D2GDR1DT (r0 v) (r1 v) (s0 v) (s1 v) (xca2m4 v) (xmg2m4 v)) * dr1) + (D2GDT2 * dt + D2GDTDP * dp) +
    ((D2GDS0DT (r0 v) (r1 v) (s0 v) (s1 v) (xfe2m4 v) (xfe2m13 v) (xfe2m2 v) (xmg2m4 v) (xmg2m13 v) (xmg2m2 v))
    * ds0 + (D2GDS1DT (r0 v) (r1 v) (s0 v) (s1 v) (xfe2m4 v) (xfe2m13 v) (xfe2m2 v) (xmg2m4 v) (xmg2m13 v)
    (xmg2m2 v)) * ds1)) v := by
  have nxca2m4 := pxca2m4.ne'
  have nxfe2m4 := pxfe2m4.ne'
  have nxfe2m13 := pxfe2m13.ne'
  have nxfe2m2 := pxfe2m2.ne'
  have nxmg2m4 := pxmg2m4.ne'
  have nxmg2m13 := pxmg2m13.ne'
  have nxmg2m2 := pxmg2m2.ne'
  try simp only [SIC, S1, S2, S0, SR, SS13, SS2, SRR, SRS13, SRS2, SS13S13, SS13S2, SS2S2, S3, SP, SRP, SPS13, SPS2, SPP, SPS13S13, SPPS13, SPPS2, SRPS13, SRPS2, SPS2S2, SPS13S2, SRRP, SRPP, SPPP, S, DGDT, D2GDT2, D2GDTDP, D2GDR0DT, D2GDR1DT, D2GDS0DT, D2GDS1DT, zero_mul, mul_zero, add_zero, zero_add, sub_zero]
  refine HasDerivAt.congr_deriv (by hdo) ?_
  ring

lemma c_DGDP {t p r0 r1 s0 s1 : ℝ → ℝ} {v dt dp dr0 dr1 ds0 ds1 : ℝ} (ht : HasDerivAt t dt v) (hp : HasDerivAt p dp v)
    (hr0 : HasDerivAt r0 dr0 v) (hr1 : HasDerivAt r1 dr1 v) (hs0 : HasDerivAt s0 ds0 v) (hs1 : HasDerivAt s1 ds1
    v) :
    HasDerivAt (fun v => DGDP (r0 v) (r1 v) (s0 v) (s1 v))
    (((D2GDR0DP (r0 v) (r1 v) (s0 v) (s1 v)) * dr0 + (D2GDR1DP (r0 v) (r1 v) (s0 v) (s1 v)) * dr1) + (D2GDTDP *
    dt + D2GDP2 * dp) + ((D2GDS0DP (r0 v) (r1 v) (s0 v) (s1 v)) * ds0 + (D2GDS1DP (r0 v) (r1 v) (s0 v) (s1 v)) *
    ds1)) v := by
  try simp only [V1, V2, V0, VR, VS13, VS2, VRR, VRS13, VRS2, VS13S13, VS13S2, VS2S2, V3, VP, VRP, VPS13, VPS2, VPP, VPS13S13, VPPS13, VPPS2, VRPS13, VRPS2, VPS2S2, VPS13S2, VRRP, VRPP, VPPP, V, DGDP, D2GDTDP, D2GDP2, D2GDR0DP, D2GDR1DP, D2GDS0DP, D2GDS1DP, zero_mul, mul_zero, add_zero, zero_add, sub_zero]
  refine HasDerivAt.congr_deriv (by hdo) ?_
  ring

lemma c_D2GDR0R0 {t p r0 r1 s0 s1 xfe2m4 xfe2m13 xfe2m2 xmg2m4 xmg2m13 xmg2m2 : ℝ → ℝ} {v dt dp dr0 dr1 ds0 ds1 : ℝ} (ht :
    HasDerivAt t dt v) (hp : HasDerivAt p dp v) (hr0 : HasDerivAt r0 dr0 v) (hr1 : HasDerivAt r1 dr1 v) (hs0 :
    HasDerivAt s0 ds0 v) (hs1 : HasDerivAt s1 ds1 v) (hxfe2m4 : HasDerivAt xfe2m4 ((1 / 2) * dr0 + (3 / 7) * ds0
    + (2 / 7) * ds1) v) (pxfe2m4 : 0 < xfe2m4 v) (hxfe2m13 : HasDerivAt xfe2m13 ((1 / 2) * dr0 + (-(4) / 7) *
    ds0 + (2 / 7) * ds1) v) (pxfe2m13 : 0 < xfe2m13 v) (hxfe2m2 : HasDerivAt xfe2m2 ((1 / 2) * dr0 + (3 / 7) *
    ds0 + (-(5) / 7) * ds1) v) (pxfe2m2 : 0 < xfe2m2 v) (hxmg2m4 : HasDerivAt xmg2m4 ((-(1) / 2) * dr0 + (-1) *
    dr1 + (-(3) / 7) * ds0 + (-(2) / 7) * ds1) v) (pxmg2m4 : 0 < xmg2m4 v) (hxmg2m13 : HasDerivAt xmg2m13 ((-(1)
    / 2) * dr0 + (4 / 7) * ds0 + (-(2) / 7) * ds1) v) (pxmg2m13 : 0 < xmg2m13 v) (hxmg2m2 : HasDerivAt xmg2m2
    ((-(1) / 2) * dr0 + (-(3) / 7) * ds0 + (5 / 7) * ds1) v) (pxmg2m2 : 0 < xmg2m2 v) :
    HasDerivAt (fun v => D2GDR0R0 (t v) (r1 v) (xfe2m4 v) (xfe2m13 v) (xfe2m2 v) (xmg2m4 v) (xmg2m13 v) (xmg2m2 v))
    (((D3GDR0R0R0 (t v) (xfe2m4 v) (xfe2m13 v) (xfe2m2 v) (xmg2m4 v) (xmg2m13 v) (xmg2m2 v)) * dr0 + (D3GDR0R0R1
    (t v) (xmg2m4 v)) * dr1) + ((D3GDR0R0DT (r1 v) (xfe2m4 v) (xfe2m13 v) (xfe2m2 v) (xmg2m4 v) (xmg2m13 v)
    (xmg2m2 v)) * dt + (D3GDR0R0DP (r1 v)) * dp) + ((D3GDR0R0S0 (t v) (xfe2m4 v) (xfe2m13 v) (xfe2m2 v) (xmg2m4
    v) (xmg2m13 v) (xmg2m2 v)) * ds0 + (D3GDR0R0S1 (t v) (xfe2m4 v) (xfe2m13 v) (xfe2m2 v) (xmg2m4 v) (xmg2m13
    v) (xmg2m2 v)) * ds1)) v := by
  have nxfe2m4 := pxfe2m4.ne'
  have nxfe2m13 := pxfe2m13.ne'
  have nxfe2m2 := pxfe2m2.ne'
  have nxmg2m4 := pxmg2m4.ne'
  have nxmg2m13 := pxmg2m13.ne'
  have nxmg2m2 := pxmg2m2.ne'
  try simp only [cW123, W123, cW4, W4, cGX123_4, GX123_4, GRR, cDWCAFE, DWCAFE, cDWCAMG, DWCAMG, GRRP, D2GDR0R0, SRR, SRRP, D3GDR0R0DT, VRR, VRRP, D3GDR0R0DP, D3GDR0R0R0, D3GDR0R0R1, D3GDR0R0S0, D3GDR0R0S1, zero_mul, mul_zero, add_zero, zero_add, sub_zero]
  refine HasDerivAt.congr_deriv (by hdo) ?_
  ring

lemma c_D2GDR0R1 {t p r0 r1 s0 s1 xmg2m4 : ℝ → ℝ} {v dt dp dr0 dr1 ds0 ds1 : ℝ} (ht : HasDerivAt t dt v) (hp : HasDerivAt p
    dp v) (hr0 : HasDerivAt r0 dr0 v) (hr1 : HasDerivAt r1 dr1 v) (hs0 : HasDerivAt s0 ds0 v) (hs1 : HasDerivAt
    s1 ds1 v) (hxmg2m4 : HasDerivAt xmg2m4 ((-(1) / 2) * dr0 + (-1) * dr1 + (-(3) / 7) * ds0 + (-(2) / 7) * ds1)
    v) (pxmg2m4 : 0 < xmg2m4 v) :
    HasDerivAt (fun v => D2GDR0R1 (t v) (r0 v) (r1 v) (s0 v) (s1 v) (xmg2m4 v))
    (((D3GDR0R0R1 (t v) (xmg2m4 v)) * dr0 + (D3GDR0R1R1 (t v) (xmg2m4 v)) * dr1) + ((D3GDR0R1DT (r0 v) (r1 v) (s0
    v) (s1 v) (xmg2m4 v)) * dt + (D3GDR0R1DP (r0 v) (r1 v) (s0 v) (s1 v)) * dp) + ((D3GDR0R1S0 (t v) (xmg2m4 v))
    * ds0 + (D3GDR0R1S1 (t v) (xmg2m4 v)) * ds1)) v := by
  have nxmg2m4 := pxmg2m4.ne'
  try simp only [cW4, W4, cWCAFE, WCAFE, cWCAMG, WCAMG, cGXCA_13, GXCA_13, cGXCA_2, GXCA_2, cDWCAFE, DWCAFE, cDWCAMG, DWCAMG, GRP, GRPS13, GRPS2, GRRP, GRPP, D2GDR0R1, SRP, SRPS13, SRPS2, SRRP, SRPP, D3GDR0R1DT, VRP, VRPS13, VRPS2, VRRP, VRPP, D3GDR0R1DP, D3GDR0R0R1, D3GDR0R1R1, D3GDR0R1S0, D3GDR0R1S1, zero_mul, mul_zero, add_zero, zero_add, sub_zero]
  refine HasDerivAt.congr_deriv (by hdo) ?_
  ring

lemma c_D2GDR0S0 {t p r0 r1 s0 s1 xfe2m4 xfe2m13 xfe2m2 xmg2m4 xmg2m13 xmg2m2 : ℝ → ℝ} {v dt dp dr0 dr1 ds0 ds1 : ℝ} (ht :
    HasDerivAt t dt v) (hp : HasDerivAt p dp v) (hr0 : HasDerivAt r0 dr0 v) (hr1 : HasDerivAt r1 dr1 v) (hs0 :
    HasDerivAt s0 ds0 v) (hs1 : HasDerivAt s1 ds1 v) (hxfe2m4 : HasDerivAt xfe2m4 ((1 / 2) * dr0 + (3 / 7) * ds0
    + (2 / 7) * ds1) v) (pxfe2m4 : 0 < xfe2m4 v) (hxfe2m13 : HasDerivAt xfe2m13 ((1 / 2) * dr0 + (-(4) / 7) *
    ds0 + (2 / 7) * ds1) v) (pxfe2m13 : 0 < xfe2m13 v) (hxfe2m2 : HasDerivAt xfe2m2 ((1 / 2) * dr0 + (3 / 7) *
    ds0 + (-(5) / 7) * ds1) v) (pxfe2m2 : 0 < xfe2m2 v) (hxmg2m4 : HasDerivAt xmg2m4 ((-(1) / 2) * dr0 + (-1) *
    dr1 + (-(3) / 7) * ds0 + (-(2) / 7) * ds1) v) (pxmg2m4 : 0 < xmg2m4 v) (hxmg2m13 : HasDerivAt xmg2m13 ((-(1)
    / 2) * dr0 + (4 / 7) * ds0 + (-(2) / 7) * ds1) v) (pxmg2m13 : 0 < xmg2m13 v) (hxmg2m2 : HasDerivAt xmg2m2
    ((-(1) / 2) * dr0 + (-(3) / 7) * ds0 + (5 / 7) * ds1) v) (pxmg2m2 : 0 < xmg2m2 v) :
    HasDerivAt (fun v => D2GDR0S0 (t v) (r1 v) (xfe2m4 v) (xfe2m13 v) (xfe2m2 v) (xmg2m4 v) (xmg2m13 v) (xmg2m2 v))
    (((D3GDR0R0S0 (t v) (xfe2m4 v) (xfe2m13 v) (xfe2m2 v) (xmg2m4 v) (xmg2m13 v) (xmg2m2 v)) * dr0 + (D3GDR0R1S0
    (t v) (xmg2m4 v)) * dr1) + ((D3GDR0S0DT (r1 v) (xfe2m4 v) (xfe2m13 v) (xfe2m2 v) (xmg2m4 v) (xmg2m13 v)
    (xmg2m2 v)) * dt + (D3GDR0S0DP (r1 v)) * dp) + ((D3GDR0S0S0 (t v) (xfe2m4 v) (xfe2m13 v) (xfe2m2 v) (xmg2m4
    v) (xmg2m13 v) (xmg2m2 v)) * ds0 + (D3GDR0S0S1 (t v) (xfe2m4 v) (xfe2m13 v) (xfe2m2 v) (xmg2m4 v) (xmg2m13
    v) (xmg2m2 v)) * ds1)) v := by
  have nxfe2m4 := pxfe2m4.ne'
  have nxfe2m13 := pxfe2m13.ne'
  have nxfe2m2 := pxfe2m2.ne'
  have nxmg2m4 := pxmg2m4.ne'
  have nxmg2m13 := pxmg2m13.ne'
  have nxmg2m2 := pxmg2m2.ne'
  try simp only [cW123, W123, cW4, W4, cGX123_4, GX123_4, cDZ, DZ, GRS13, cDWCAFE, DWCAFE, cDWCAMG, DWCAMG, GRPS13, D2GDR0S0, SRS13, SRPS13, D3GDR0S0DT, VRS13, VRPS13, D3GDR0S0DP, D3GDR0R0S0, D3GDR0R1S0, D3GDR0S0S0, D3GDR0S0S1, zero_mul, mul_zero, add_zero, zero_add, sub_zero]
  refine HasDerivAt.congr_deriv (by hdo) ?_
  ring

lemma c_D2GDR0S1 {t p r0 r1 s0 s1 xfe2m4 xfe2m13 xfe2m2 xmg2m4 xmg2m13 xmg2m2 : ℝ → ℝ} {v dt dp dr0 dr1 ds0 ds1 : ℝ} (ht :
    HasDerivAt t dt v) (hp : HasDerivAt p dp v) (hr0 : HasDerivAt r0 dr0 v) (hr1 : HasDerivAt r1 dr1 v) (hs0 :
    HasDerivAt s0 ds0 v) (hs1 : HasDerivAt s1 ds1 v) (hxfe2m4 : HasDerivAt xfe2m4 ((1 / 2) * dr0 + (3 / 7) * ds0
    + (2 / 7) * ds1) v) (pxfe2m4 : 0 < xfe2m4 v) (hxfe2m13 : HasDerivAt xfe2m13 ((1 / 2) * dr0 + (-(4) / 7) *
    ds0 + (2 / 7) * ds1) v) (pxfe2m13 : 0 < xfe2m13 v) (hxfe2m2 : HasDerivAt xfe2m2 ((1 / 2) * dr0 + (3 / 7) *
    ds0 + (-(5) / 7) * ds1) v) (pxfe2m2 : 0 < xfe2m2 v) (hxmg2m4 : HasDerivAt xmg2m4 ((-(1) / 2) * dr0 + (-1) *
    dr1 + (-(3) / 7) * ds0 + (-(2) / 7) * ds1) v) (pxmg2m4 : 0 < xmg2m4 v) (hxmg2m13 : HasDerivAt xmg2m13 ((-(1)
    / 2) * dr0 + (4 / 7) * ds0 + (-(2) / 7) * ds1) v) (pxmg2m13 : 0 < xmg2m13 v) (hxmg2m2 : HasDerivAt xmg2m2
    ((-(1) / 2) * dr0 + (-(3) / 7) * ds0 + (5 / 7) * ds1) v) (pxmg2m2 : 0 < xmg2m2 v) :
    HasDerivAt (fun v => D2GDR0S1 (t v) (r1 v) (xfe2m4 v) (xfe2m13 v) (xfe2m2 v) (xmg2m4 v) (xmg2m13 v) (xmg2m2 v))
    (((D3GDR0R0S1 (t v) (xfe2m4 v) (xfe2m13 v) (xfe2m2 v) (xmg2m4 v) (xmg2m13 v) (xmg2m2 v)) * dr0 + (D3GDR0R1S1
    (t v) (xmg2m4 v)) * dr1) + ((D3GDR0S1DT (r1 v) (xfe2m4 v) (xfe2m13 v) (xfe2m2 v) (xmg2m4 v) (xmg2m13 v)
    (xmg2m2 v)) * dt + (D3GDR0S1DP (r1 v)) * dp) + ((D3GDR0S0S1 (t v) (xfe2m4 v) (xfe2m13 v) (xfe2m2 v) (xmg2m4
    v) (xmg2m13 v) (xmg2m2 v)) * ds0 + (D3GDR0S1S1 (t v) (xfe2m4 v) (xfe2m13 v) (xfe2m2 v) (xmg2m4 v) (xmg2m13
    v) (xmg2m2 v)) * ds1)) v := by
  have nxfe2m4 := pxfe2m4.ne'
  have nxfe2m13 := pxfe2m13.ne'
  have nxfe2m2 := pxfe2m2.ne'
  have nxmg2m4 := pxmg2m4.ne'
  have nxmg2m13 := pxmg2m13.ne'
  have nxmg2m2 := pxmg2m2.ne'
  try simp only [cW123, W123, cW4, W4, cGX123_4, GX123_4, cDZ, DZ, GRS2, cDWCAFE, DWCAFE, cDWCAMG, DWCAMG, GRPS2, D2GDR0S1, SRS2, SRPS2, D3GDR0S1DT, VRS2, VRPS2, D3GDR0S1DP, D3GDR0R0S1, D3GDR0R1S1, D3GDR0S0S1, D3GDR0S1S1, zero_mul, mul_zero, add_zero, zero_add, sub_zero]
  refine HasDerivAt.congr_deriv (by hdo) ?_
  ring

lemma c_D2GDR0DT {t p r0 r1 s0 s1 xfe2m4 xfe2m13 xfe2m2 xmg2m4 xmg2m13 xmg2m2 : ℝ → ℝ} {v dt dp dr0 dr1 ds0 ds1 : ℝ} (ht :
    HasDerivAt t dt v) (hp : HasDerivAt p dp v) (hr0 : HasDerivAt r0 dr0 v) (hr1 : HasDerivAt r1 dr1 v) (hs0 :
    HasDerivAt s0 ds0 v) (hs1 : HasDerivAt s1 ds1 v) (hxfe2m4 : HasDerivAt xfe2m4 ((1 / 2) * dr0 + (3 / 7) * ds0
    + (2 / 7) * ds1) v) (pxfe2m4 : 0 < xfe2m4 v) (hxfe2m13 : HasDerivAt xfe2m13 ((1 / 2) * dr0 + (-(4) / 7) *
    ds0 + (2 / 7) * ds1) v) (pxfe2m13 : 0 < xfe2m13 v) (hxfe2m2 : HasDerivAt xfe2m2 ((1 / 2) * dr0 + (3 / 7) *
    ds0 + (-(5) / 7) * ds1) v) (pxfe2m2 : 0 < xfe2m2 v) (hxmg2m4 : HasDerivAt xmg2m4 ((-(1) / 2) * dr0 + (-1) *
    dr1 + (-(3) / 7) * ds0 + (-(2) / 7) * ds1) v) (pxmg2m4 : 0 < xmg2m4 v) (hxmg2m13 : HasDerivAt xmg2m13 ((-(1)
    / 2) * dr0 + (4 / 7) * ds0 + (-(2) / 7) * ds1) v) (pxmg2m13 : 0 < xmg2m13 v) (hxmg2m2 : HasDerivAt xmg2m2
    ((-(1) / 2) * dr0 + (-(3) / 7) * ds0 + (5 / 7) * ds1) v) (pxmg2m2 : 0 < xmg2m2 v) :
    HasDerivAt (fun v => D2GDR0DT (r0 v) (r1 v) (s0 v) (s1 v) (xfe2m4 v) (xfe2m13 v) (xfe2m2 v) (xmg2m4 v) (xmg2m13 v) (xmg2m2 v))
    (((D3GDR0R0DT (r1 v) (xfe2m4 v) (xfe2m13 v) (xfe2m2 v) (xmg2m4 v) (xmg2m13 v) (xmg2m2 v)) * dr0 + (D3GDR0R1DT
    (r0 v) (r1 v) (s0 v) (s1 v) (xmg2m4 v)) * dr1) + (D3GDR0DT2 * dt + D3GDR0DTDP * dp) + ((D3GDR0S0DT (r1 v)
    (xfe2m4 v) (xfe2m13 v) (xfe2m2 v) (xmg2m4 v) (xmg2m13 v) (xmg2m2 v)) * ds0 + (D3GDR0S1DT (r1 v) (xfe2m4 v)
    (xfe2m13 v) (xfe2m2 v) (xmg2m4 v) (xmg2m13 v) (xmg2m2 v)) * ds1)) v := by
  have nxfe2m4 := pxfe2m4.ne'
  have nxfe2m13 := pxfe2m13.ne'
  have nxfe2m2 := pxfe2m2.ne'
  have nxmg2m4 := pxmg2m4.ne'
  have nxmg2m13 := pxmg2m13.ne'
  have nxmg2m2 := pxmg2m2.ne'
  try simp only [S1, S2, SR, SRR, SRS13, SRS2, SRP, SRPS13, SRPS2, SRRP, SRPP, D2GDR0DT, D3GDR0DT2, D3GDR0DTDP, D3GDR0R0DT, D3GDR0R1DT, D3GDR0S0DT, D3GDR0S1DT, zero_mul, mul_zero, add_zero, zero_add, sub_zero]
  refine HasDerivAt.congr_deriv (by hdo) ?_
  ring

lemma c_D2GDR0DP {t p r0 r1 s0 s1 : ℝ → ℝ} {v dt dp dr0 dr1 ds0 ds1 : ℝ} (ht : HasDerivAt t dt v) (hp : HasDerivAt p dp v)
    (hr0 : HasDerivAt r0 dr0 v) (hr1 : HasDerivAt r1 dr1 v) (hs0 : HasDerivAt s0 ds0 v) (hs1 : HasDerivAt s1 ds1
    v) :
    HasDerivAt (fun v => D2GDR0DP (r0 v) (r1 v) (s0 v) (s1 v))
    (((D3GDR0R0DP (r1 v)) * dr0 + (D3GDR0R1DP (r0 v) (r1 v) (s0 v) (s1 v)) * dr1) + (D3GDR0DTDP * dt + D3GDR0DP2
    * dp) + ((D3GDR0S0DP (r1 v)) * ds0 + (D3GDR0S1DP (r1 v)) * ds1)) v := by
  try simp only [V1, V2, VR, VRR, VRS13, VRS2, VRP, VRPS13, VRPS2, VRRP, VRPP, D2GDR0DP, D3GDR0DTDP, D3GDR0DP2, D3GDR0R0DP, D3GDR0R1DP, D3GDR0S0DP, D3GDR0S1DP, zero_mul, mul_zero, add_zero, zero_add, sub_zero]
  refine HasDerivAt.congr_deriv (by hdo) ?_
  ring

lemma c_D2GDR1R1 {t p r0 r1 s0 s1 xca2m4 xmg2m4 : ℝ → ℝ} {v dt dp dr0 dr1 ds0 ds1 : ℝ} (ht : HasDerivAt t dt v) (hp :
    HasDerivAt p dp v) (hr0 : HasDerivAt r0 dr0 v) (hr1 : HasDerivAt r1 dr1 v) (hs0 : HasDerivAt s0 ds0 v) (hs1
    : HasDerivAt s1 ds1 v) (hxca2m4 : HasDerivAt xca2m4 (1 * dr1) v) (pxca2m4 : 0 < xca2m4 v) (hxmg2m4 :
    HasDerivAt xmg2m4 ((-(1) / 2) * dr0 + (-1) * dr1 + (-(3) / 7) * ds0 + (-(2) / 7) * ds1) v) (pxmg2m4 : 0 <
    xmg2m4 v) :
    HasDerivAt (fun v => D2GDR1R1 (t v) (r0 v) (r1 v) (s0 v) (s1 v) (xca2m4 v) (xmg2m4 v))
    (((D3GDR0R1R1 (t v) (xmg2m4 v)) * dr0 + (D3GDR1R1R1 (t v) (xca2m4 v) (xmg2m4 v)) * dr1) + ((D3GDR1R1DT (r0 v)
    (r1 v) (s0 v) (s1 v) (xca2m4 v) (xmg2m4 v)) * dt + (D3GDR1R1DP (r0 v) (r1 v) (s0 v) (s1 v)) * dp) +
    ((D3GDR1R1S0 (t v) (xmg2m4 v)) * ds0 + (D3GDR1R1S1 (t v) (xmg2m4 v)) * ds1)) v := by
  have nxca2m4 := pxca2m4.ne'
  have nxmg2m4 := pxmg2m4.ne'
  try simp only [cWCAMG, WCAMG, cDWCAFE, DWCAFE, cDWCAMG, DWCAMG, GPP, GPPS13, GPPS2, GRPP, GPPP, D2GDR1R1, SPP, SPPS13, SPPS2, SRPP, SPPP, D3GDR1R1DT, VPP, VPPS13, VPPS2, VRPP, VPPP, D3GDR1R1DP, D3GDR0R1R1, D3GDR1R1R1, D3GDR1R1S0, D3GDR1R1S1, zero_mul, mul_zero, add_zero, zero_add, sub_zero]
  refine HasDerivAt.congr_deriv (by hdo) ?_
  ring

lemma c_D2GDR1S0 {t p r0 r1 s0 s1 xmg2m4 : ℝ → ℝ} {v dt dp dr0 dr1 ds0 ds1 : ℝ} (ht : HasDerivAt t dt v) (hp : HasDerivAt p
    dp v) (hr0 : HasDerivAt r0 dr0 v) (hr1 : HasDerivAt r1 dr1 v) (hs0 : HasDerivAt s0 ds0 v) (hs1 : HasDerivAt
    s1 ds1 v) (hxmg2m4 : HasDerivAt xmg2m4 ((-(1) / 2) * dr0 + (-1) * dr1 + (-(3) / 7) * ds0 + (-(2) / 7) * ds1)
    v) (pxmg2m4 : 0 < xmg2m4 v) :
    HasDerivAt (fun v => D2GDR1S0 (t v) (r0 v) (r1 v) (s0 v) (s1 v) (xmg2m4 v))
    (((D3GDR0R1S0 (t v) (xmg2m4 v)) * dr0 + (D3GDR1R1S0 (t v) (xmg2m4 v)) * dr1) + ((D3GDR1S0DT (r0 v) (r1 v) (s0
    v) (s1 v) (xmg2m4 v)) * dt + (D3GDR1S0DP (r0 v) (r1 v) (s0 v) (s1 v)) * dp) + ((D3GDR1S0S0 (t v) (xmg2m4 v))
    * ds0 + (D3GDR1S0S1 (t v) (xmg2m4 v)) * ds1)) v := by
  have nxmg2m4 := pxmg2m4.ne'
  try simp only [cW4, W4, cWCAFE, WCAFE, cWCAMG, WCAMG, cGXCA_13, GXCA_13, cGXCA_2, GXCA_2, cDWCAFE, DWCAFE, cDWCAMG, DWCAMG, GPS13, GPS13S13, GPPS13, GRPS13, GPS13S2, D2GDR1S0, SPS13, SPS13S13, SPPS13, SRPS13, SPS13S2, D3GDR1S0DT, VPS13, VPS13S13, VPPS13, VRPS13, VPS13S2, D3GDR1S0DP, D3GDR0R1S0, D3GDR1R1S0, D3GDR1S0S0, D3GDR1S0S1, zero_mul, mul_zero, add_zero, zero_add, sub_zero]
  refine HasDerivAt.congr_deriv (by hdo) ?_
  ring

lemma c_D2GDR1S1 {t p r0 r1 s0 s1 xmg2m4 : ℝ → ℝ} {v dt dp dr0 dr1 ds0 ds1 : ℝ} (ht : HasDerivAt t dt v) (hp : HasDerivAt p
    dp v) (hr0 : HasDerivAt r0 dr0 v) (hr1 : HasDerivAt r1 dr1 v) (hs0 : HasDerivAt s0 ds0 v) (hs1 : HasDerivAt
    s1 ds1 v) (hxmg2m4 : HasDerivAt xmg2m4 ((-(1) / 2) * dr0 + (-1) * dr1 + (-(3) / 7) * ds0 + (-(2) / 7) * ds1)
    v) (pxmg2m4 : 0 < xmg2m4 v) :
    HasDerivAt (fun v => D2GDR1S1 (t v) (r0 v) (r1 v) (s0 v) (s1 v) (xmg2m4 v))
    (((D3GDR0R1S1 (t v) (xmg2m4 v)) * dr0 + (D3GDR1R1S1 (t v) (xmg2m4 v)) * dr1) + ((D3GDR1S1DT (r0 v) (r1 v) (s0
    v) (s1 v) (xmg2m4 v)) * dt + (D3GDR1S1DP (r0 v) (r1 v) (s0 v) (s1 v)) * dp) + ((D3GDR1S0S1 (t v) (xmg2m4 v))
    * ds0 + (D3GDR1S1S1 (t v) (xmg2m4 v)) * ds1)) v := by
  have nxmg2m4 := pxmg2m4.ne'
  try simp only [cW4, W4, cWCAFE, WCAFE, cWCAMG, WCAMG, cGXCA_13, GXCA_13, cGXCA_2, GXCA_2, cDWCAFE, DWCAFE, cDWCAMG, DWCAMG, GPS2, GPPS2, GRPS2, GPS2S2, GPS13S2, D2GDR1S1, SPS2, SPPS2, SRPS2, SPS2S2, SPS13S2, D3GDR1S1DT, VPS2, VPPS2, VRPS2, VPS2S2, VPS13S2, D3GDR1S1DP, D3GDR0R1S1, D3GDR1R1S1, D3GDR1S0S1, D3GDR1S1S1, zero_mul, mul_zero, add_zero, zero_add, sub_zero]
  refine HasDerivAt.congr_deriv (by hdo) ?_
  ring

lemma c_D2GDR1DT {t p r0 r1 s0 s1 xca2m4 xmg2m4 : ℝ → ℝ} {v dt dp dr0 dr1 ds0 ds1 : ℝ} (ht : HasDerivAt t dt v) (hp :
    HasDerivAt p dp v) (hr0 : HasDerivAt r0 dr0 v) (hr1 : HasDerivAt r1 dr1 v) (hs0 : HasDerivAt s0 ds0 v) (hs1
    : HasDerivAt s1 ds1 v) (hxca2m4 : HasDerivAt xca2m4 (1 * dr1) v) (pxca2m4 : 0 < xca2m4 v) (hxmg2m4 :
    HasDerivAt xmg2m4 ((-(1) / 2) * dr0 + (-1) * dr1 + (-(3) / 7) * ds0 + (-(2) / 7) * ds1) v) (pxmg2m4 : 0 <
    xmg2m4 v) :
    HasDerivAt (fun v => D2GDR1DT (r0 v) (r1 v) (s0 v) (s1 v) (xca2m4 v) (xmg2m4 v))
    (((D3GDR0R1DT (r0 v) (r1 v) (s0 v) (s1 v) (xmg2m4 v)) * dr0 + (D3GDR1R1DT (r0 v) (r1 v) (s0 v) (s1 v) (xca2m4
    v) (xmg2m4 v)) * dr1) + (D3GDR1DT2 * dt + D3GDR1DTDP * dp) + ((D3GDR1S0DT (r0 v) (r1 v) (s0 v) (s1 v)
    (xmg2m4 v)) * ds0 + (D3GDR1S1DT (r0 v) (r1 v) (s0 v) (s1 v) (xmg2m4 v)) * ds1)) v := by
  have nxca2m4 := pxca2m4.ne'
  have nxmg2m4 := pxmg2m4.ne'
  try simp only [S1, S3, SP, SRP, SPS13, SPS2, SPP, SPS13S13, SPPS13, SPPS2, SRPS13, SRPS2, SPS2S2, SPS13S2, SRRP, SRPP, SPPP, D2GDR1DT, D3GDR1DT2, D3GDR1DTDP, D3GDR0R1DT, D3GDR1R1DT, D3GDR1S0DT, D3GDR1S1DT, zero_mul, mul_zero, add_zero, zero_add, sub_zero]
  refine HasDerivAt.congr_deriv (by hdo) ?_
  ring

lemma c_D2GDR1DP {t p r0 r1 s0 s1 : ℝ → ℝ} {v dt dp dr0 dr1 ds0 ds1 : ℝ} (ht : HasDerivAt t dt v) (hp : HasDerivAt p dp v)
    (hr0 : HasDerivAt r0 dr0 v) (hr1 : HasDerivAt r1 dr1 v) (hs0 : HasDerivAt s0 ds0 v) (hs1 : HasDerivAt s1 ds1
    v) :
    HasDerivAt (fun v => D2GDR1DP (r0 v) (r1 v) (s0 v) (s1 v))
    (((D3GDR0R1DP (r0 v) (r1 v) (s0 v) (s1 v)) * dr0 + (D3GDR1R1DP (r0 v) (r1 v) (s0 v) (s1 v)) * dr1) +
    (D3GDR1DTDP * dt + D3GDR1DP2 * dp) + ((D3GDR1S0DP (r0 v) (r1 v) (s0 v) (s1 v)) * ds0 + (D3GDR1S1DP (r0 v)
    (r1 v) (s0 v) (s1 v)) * ds1)) v := by
  try simp only [V1, V3, VP, VRP, VPS13, VPS2, VPP, VPS13S13, VPPS13, VPPS2, VRPS13, VRPS2, VPS2S2, VPS13S2, VRRP, VRPP, VPPP, D2GDR1DP, D3GDR1DTDP, D3GDR1DP2, D3GDR0R1DP, D3GDR1R1DP, D3GDR1S0DP, D3GDR1S1DP, zero_mul, mul_zero, add_zero, zero_add, sub_zero]
  refine HasDerivAt.congr_deriv (by hdo) ?_
  ring

lemma c_D2GDS0S0 {t p r0 r1 s0 s1 xfe2m4 xfe2m13 xfe2m2 xmg2m4 xmg2m13 xmg2m2 : ℝ → ℝ} {v dt dp dr0 dr1 ds0 ds1 : ℝ} (ht :
    HasDerivAt t dt v) (hp : HasDerivAt p dp v) (hr0 : HasDerivAt r0 dr0 v) (hr1 : HasDerivAt r1 dr1 v) (hs0 :
    HasDerivAt s0 ds0 v) (hs1 : HasDerivAt s1 ds1 v) (hxfe2m4 : HasDerivAt xfe2m4 ((1 / 2) * dr0 + (3 / 7) * ds0
    + (2 / 7) * ds1) v) (pxfe2m4 : 0 < xfe2m4 v) (hxfe2m13 : HasDerivAt xfe2m13 ((1 / 2) * dr0 + (-(4) / 7) *
    ds0 + (2 / 7) * ds1) v) (pxfe2m13 : 0 < xfe2m13 v) (hxfe2m2 : HasDerivAt xfe2m2 ((1 / 2) * dr0 + (3 / 7) *
    ds0 + (-(5) / 7) * ds1) v) (pxfe2m2 : 0 < xfe2m2 v) (hxmg2m4 : HasDerivAt xmg2m4 ((-(1) / 2) * dr0 + (-1) *
    dr1 + (-(3) / 7) * ds0 + (-(2) / 7) * ds1) v) (pxmg2m4 : 0 < xmg2m4 v) (hxmg2m13 : HasDerivAt xmg2m13 ((-(1)
    / 2) * dr0 + (4 / 7) * ds0 + (-(2) / 7) * ds1) v) (pxmg2m13 : 0 < xmg2m13 v) (hxmg2m2 : HasDerivAt xmg2m2
    ((-(1) / 2) * dr0 + (-(3) / 7) * ds0 + (5 / 7) * ds1) v) (pxmg2m2 : 0 < xmg2m2 v) :
    HasDerivAt (fun v => D2GDS0S0 (t v) (r1 v) (xfe2m4 v) (xfe2m13 v) (xfe2m2 v) (xmg2m4 v) (xmg2m13 v) (xmg2m2 v))
    (((D3GDR0S0S0 (t v) (xfe2m4 v) (xfe2m13 v) (xfe2m2 v) (xmg2m4 v) (xmg2m13 v) (xmg2m2 v)) * dr0 + (D3GDR1S0S0
    (t v) (xmg2m4 v)) * dr1) + ((D3GDS0S0DT (r1 v) (xfe2m4 v) (xfe2m13 v) (xfe2m2 v) (xmg2m4 v) (xmg2m13 v)
    (xmg2m2 v)) * dt + (D3GDS0S0DP (r1 v)) * dp) + ((D3GDS0S0S0 (t v) (xfe2m4 v) (xfe2m13 v) (xfe2m2 v) (xmg2m4
    v) (xmg2m13 v) (xmg2m2 v)) * ds0 + (D3GDS0S0S1 (t v) (xfe2m4 v) (xfe2m13 v) (xfe2m2 v) (xmg2m4 v) (xmg2m13
    v) (xmg2m2 v)) * ds1)) v := by
  have nxfe2m4 := pxfe2m4.ne'
  have nxfe2m13 := pxfe2m13.ne'
  have nxfe2m2 := pxfe2m2.ne'
  have nxmg2m4 := pxmg2m4.ne'
  have nxmg2m13 := pxmg2m13.ne'
  have nxmg2m2 := pxmg2m2.ne'
  try simp only [cW123, W123, cW4, W4, cGX123_4, GX123_4, cGX13_24, GX13_24, cDZ, DZ, GS13S13, cDWCAFE, DWCAFE, cDWCAMG, DWCAMG, GPS13S13, D2GDS0S0, SS13S13, SPS13S13, D3GDS0S0DT, VS13S13, VPS13S13, D3GDS0S0DP, D3GDR0S0S0, D3GDR1S0S0, D3GDS0S0S0, D3GDS0S0S1, zero_mul, mul_zero, add_zero, zero_add, sub_zero]
  refine HasDerivAt.congr_deriv (by hdo) ?_
  ring

lemma c_D2GDS0S1 {t p r0 r1 s0 s1 xfe2m4 xfe2m13 xfe2m2 xmg2m4 xmg2m13 xmg2m2 : ℝ → ℝ} {v dt dp dr0 dr1 ds0 ds1 : ℝ} (ht :
    HasDerivAt t dt v) (hp : HasDerivAt p dp v) (hr0 : HasDerivAt r0 dr0 v) (hr1 : HasDerivAt r1 dr1 v) (hs0 :
    HasDerivAt s0 ds0 v) (hs1 : HasDerivAt s1 ds1 v) (hxfe2m4 : HasDerivAt xfe2m4 ((1 / 2) * dr0 + (3 / 7) * ds0
    + (2 / 7) * ds1) v) (pxfe2m4 : 0 < xfe2m4 v) (hxfe2m13 : HasDerivAt xfe2m13 ((1 / 2) * dr0 + (-(4) / 7) *
    ds0 + (2 / 7) * ds1) v) (pxfe2m13 : 0 < xfe2m13 v) (hxfe2m2 : HasDerivAt xfe2m2 ((1 / 2) * dr0 + (3 / 7) *
    ds0 + (-(5) / 7) * ds1) v) (pxfe2m2 : 0 < xfe2m2 v) (hxmg2m4 : HasDerivAt xmg2m4 ((-(1) / 2) * dr0 + (-1) *
    dr1 + (-(3) / 7) * ds0 + (-(2) / 7) * ds1) v) (pxmg2m4 : 0 < xmg2m4 v) (hxmg2m13 : HasDerivAt xmg2m13 ((-(1)
    / 2) * dr0 + (4 / 7) * ds0 + (-(2) / 7) * ds1) v) (pxmg2m13 : 0 < xmg2m13 v) (hxmg2m2 : HasDerivAt xmg2m2
    ((-(1) / 2) * dr0 + (-(3) / 7) * ds0 + (5 / 7) * ds1) v) (pxmg2m2 : 0 < xmg2m2 v) :
    HasDerivAt (fun v => D2GDS0S1 (t v) (r1 v) (xfe2m4 v) (xfe2m13 v) (xfe2m2 v) (xmg2m4 v) (xmg2m13 v) (xmg2m2 v))
    (((D3GDR0S0S1 (t v) (xfe2m4 v) (xfe2m13 v) (xfe2m2 v) (xmg2m4 v) (xmg2m13 v) (xmg2m2 v)) * dr0 + (D3GDR1S0S1
    (t v) (xmg2m4 v)) * dr1) + ((D3GDS0S1DT (r1 v) (xfe2m4 v) (xfe2m13 v) (xfe2m2 v) (xmg2m4 v) (xmg2m13 v)
    (xmg2m2 v)) * dt + (D3GDS0S1DP (r1 v)) * dp) + ((D3GDS0S0S1 (t v) (xfe2m4 v) (xfe2m13 v) (xfe2m2 v) (xmg2m4
    v) (xmg2m13 v) (xmg2m2 v)) * ds0 + (D3GDS0S1S1 (t v) (xfe2m4 v) (xfe2m13 v) (xfe2m2 v) (xmg2m4 v) (xmg2m13
    v) (xmg2m2 v)) * ds1)) v := by
  have nxfe2m4 := pxfe2m4.ne'
  have nxfe2m13 := pxfe2m13.ne'
  have nxfe2m2 := pxfe2m2.ne'
  have nxmg2m4 := pxmg2m4.ne'
  have nxmg2m13 := pxmg2m13.ne'
  have nxmg2m2 := pxmg2m2.ne'
  try simp only [cW123, W123, cW4, W4, cGX123_4, GX123_4, cGX13_24, GX13_24, cGX134_2, GX134_2, cDZ, DZ, GS13S2, cDWCAFE, DWCAFE, cDWCAMG, DWCAMG, GPS13S2, D2GDS0S1, SS13S2, SPS13S2, D3GDS0S1DT, VS13S2, VPS13S2, D3GDS0S1DP, D3GDR0S0S1, D3GDR1S0S1, D3GDS0S0S1, D3GDS0S1S1, zero_mul, mul_zero, add_zero, zero_add, sub_zero]
  refine HasDerivAt.congr_deriv (by hdo) ?_
  ring

lemma c_D2GDS0DT {t p r0 r1 s0 s1 xfe2m4 xfe2m13 xfe2m2 xmg2m4 xmg2m13 xmg2m2 : ℝ → ℝ} {v dt dp dr0 dr1 ds0 ds1 : ℝ} (ht :
    HasDerivAt t dt v) (hp : HasDerivAt p dp v) (hr0 : HasDerivAt r0 dr0 v) (hr1 : HasDerivAt r1 dr1 v) (hs0 :
    HasDerivAt s0 ds0 v) (hs1 : HasDerivAt s1 ds1 v) (hxfe2m4 : HasDerivAt xfe2m4 ((1 / 2) * dr0 + (3 / 7) * ds0
    + (2 / 7) * ds1) v) (pxfe2m4 : 0 < xfe2m4 v) (hxfe2m13 : HasDerivAt xfe2m13 ((1 / 2) * dr0 + (-(4) / 7) *
    ds0 + (2 / 7) * ds1) v) (pxfe2m13 : 0 < xfe2m13 v) (hxfe2m2 : HasDerivAt xfe2m2 ((1 / 2) * dr0 + (3 / 7) *
    ds0 + (-(5) / 7) * ds1) v) (pxfe2m2 : 0 < xfe2m2 v) (hxmg2m4 : HasDerivAt xmg2m4 ((-(1) / 2) * dr0 + (-1) *
    dr1 + (-(3) / 7) * ds0 + (-(2) / 7) * ds1) v) (pxmg2m4 : 0 < xmg2m4 v) (hxmg2m13 : HasDerivAt xmg2m13 ((-(1)
    / 2) * dr0 + (4 / 7) * ds0 + (-(2) / 7) * ds1) v) (pxmg2m13 : 0 < xmg2m13 v) (hxmg2m2 : HasDerivAt xmg2m2
    ((-(1) / 2) * dr0 + (-(3) / 7) * ds0 + (5 / 7) * ds1) v) (pxmg2m2 : 0 < xmg2m2 v) :
    HasDerivAt (fun v => D2GDS0DT (r0 v) (r1 v) (s0 v) (s1 v) (xfe2m4 v) (xfe2m13 v) (xfe2m2 v) (xmg2m4 v) (xmg2m13 v) (xmg2m2 v))
    (((D3GDR0S0DT (r1 v) (xfe2m4 v) (xfe2m13 v) (xfe2m2 v) (xmg2m4 v) (xmg2m13 v) (xmg2m2 v)) * dr0 + (D3GDR1S0DT
    (r0 v) (r1 v) (s0 v) (s1 v) (xmg2m4 v)) * dr1) + (D3GDS0DT2 * dt + D3GDS0DTDP * dp) + ((D3GDS0S0DT (r1 v)
    (xfe2m4 v) (xfe2m13 v) (xfe2m2 v) (xmg2m4 v) (xmg2m13 v) (xmg2m2 v)) * ds0 + (D3GDS0S1DT (r1 v) (xfe2m4 v)
    (xfe2m13 v) (xfe2m2 v) (xmg2m4 v) (xmg2m13 v) (xmg2m2 v)) * ds1)) v := by
  have nxfe2m4 := pxfe2m4.ne'
  have nxfe2m13 := pxfe2m13.ne'
  have nxfe2m2 := pxfe2m2.ne'
  have nxmg2m4 := pxmg2m4.ne'
  have nxmg2m13 := pxmg2m13.ne'
  have nxmg2m2 := pxmg2m2.ne'
  try simp only [SS13, SRS13, SS13S13, SS13S2, SPS13, SPS13S13, SPPS13, SRPS13, SPS13S2, D2GDS0DT, D3GDS0DT2, D3GDS0DTDP, D3GDR0S0DT, D3GDR1S0DT, D3GDS0S0DT, D3GDS0S1DT, zero_mul, mul_zero, add_zero, zero_add, sub_zero]
  refine HasDerivAt.congr_deriv (by hdo) ?_
  ring

lemma c_D2GDS0DP {t p r0 r1 s0 s1 : ℝ → ℝ} {v dt dp dr0 dr1 ds0 ds1 : ℝ} (ht : HasDerivAt t dt v) (hp : HasDerivAt p dp v)
    (hr0 : HasDerivAt r0 dr0 v) (hr1 : HasDerivAt r1 dr1 v) (hs0 : HasDerivAt s0 ds0 v) (hs1 : HasDerivAt s1 ds1
    v) :
    HasDerivAt (fun v => D2GDS0DP (r0 v) (r1 v) (s0 v) (s1 v))
    (((D3GDR0S0DP (r1 v)) * dr0 + (D3GDR1S0DP (r0 v) (r1 v) (s0 v) (s1 v)) * dr1) + (D3GDS0DTDP * dt + D3GDS0DP2
    * dp) + ((D3GDS0S0DP (r1 v)) * ds0 + (D3GDS0S1DP (r1 v)) * ds1)) v := by
  try simp only [VS13, VRS13, VS13S13, VS13S2, VPS13, VPS13S13, VPPS13, VRPS13, VPS13S2, D2GDS0DP, D3GDS0DTDP, D3GDS0DP2, D3GDR0S0DP, D3GDR1S0DP, D3GDS0S0DP, D3GDS0S1DP, zero_mul, mul_zero, add_zero, zero_add, sub_zero]
  refine HasDerivAt.congr_deriv (by hdo) ?_
  ring

lemma c_D2GDS1S1 {t p r0 r1 s0 s1 xfe2m4 xfe2m13 xfe2m2 xmg2m4 xmg2m13 xmg2m2 : ℝ → ℝ} {v dt dp dr0 dr1 ds0 ds1 : ℝ} (ht :
    HasDerivAt t dt v) (hp : HasDerivAt p dp v) (hr0 : HasDerivAt r0 dr0 v) (hr1 : HasDerivAt r1 dr1 v) (hs0 :
    HasDerivAt s0 ds0 v) (hs1 : HasDerivAt s1 ds1 v) (hxfe2m4 : HasDerivAt xfe2m4 ((1 / 2) * dr0 + (3 / 7) * ds0
    + (2 / 7) * ds1) v) (pxfe2m4 : 0 < xfe2m4 v) (hxfe2m13 : HasDerivAt xfe2m13 ((1 / 2) * dr0 + (-(4) / 7) *
    ds0 + (2 / 7) * ds1) v) (pxfe2m13 : 0 < xfe2m13 v) (hxfe2m2 : HasDerivAt xfe2m2 ((1 / 2) * dr0 + (3 / 7) *
    ds0 + (-(5) / 7) * ds1) v) (pxfe2m2 : 0 < xfe2m2 v) (hxmg2m4 : HasDerivAt xmg2m4 ((-(1) / 2) * dr0 + (-1) *
    dr1 + (-(3) / 7) * ds0 + (-(2) / 7) * ds1) v) (pxmg2m4 : 0 < xmg2m4 v) (hxmg2m13 : HasDerivAt xmg2m13 ((-(1)
    / 2) * dr0 + (4 / 7) * ds0 + (-(2) / 7) * ds1) v) (pxmg2m13 : 0 < xmg2m13 v) (hxmg2m2 : HasDerivAt xmg2m2
    ((-(1) / 2) * dr0 + (-(3) / 7) * ds0 + (5 / 7) * ds1) v) (pxmg2m2 : 0 < xmg2m2 v) :
    HasDerivAt (fun v => D2GDS1S1 (t v) (r1 v) (xfe2m4 v) (xfe2m13 v) (xfe2m2 v) (xmg2m4 v) (xmg2m13 v) (xmg2m2 v))
    (((D3GDR0S1S1 (t v) (xfe2m4 v) (xfe2m13 v) (xfe2m2 v) (xmg2m4 v) (xmg2m13 v) (xmg2m2 v)) * dr0 + (D3GDR1S1S1
    (t v) (xmg2m4 v)) * dr1) + ((D3GDS1S1DT (r1 v) (xfe2m4 v) (xfe2m13 v) (xfe2m2 v) (xmg2m4 v) (xmg2m13 v)
    (xmg2m2 v)) * dt + (D3GDS1S1DP (r1 v)) * dp) + ((D3GDS0S1S1 (t v) (xfe2m4 v) (xfe2m13 v) (xfe2m2 v) (xmg2m4
    v) (xmg2m13 v) (xmg2m2 v)) * ds0 + (D3GDS1S1S1 (t v) (xfe2m4 v) (xfe2m13 v) (xfe2m2 v) (xmg2m4 v) (xmg2m13
    v) (xmg2m2 v)) * ds1)) v := by
  have nxfe2m4 := pxfe2m4.ne'
  have nxfe2m13 := pxfe2m13.ne'
  have nxfe2m2 := pxfe2m2.ne'
  have nxmg2m4 := pxmg2m4.ne'
  have nxmg2m13 := pxmg2m13.ne'
  have nxmg2m2 := pxmg2m2.ne'
  try simp only [cW123, W123, cW4, W4, cGX123_4, GX123_4, cGX134_2, GX134_2, cDZ, DZ, GS2S2, cDWCAFE, DWCAFE, cDWCAMG, DWCAMG, GPS2S2, D2GDS1S1, SS2S2, SPS2S2, D3GDS1S1DT, VS2S2, VPS2S2, D3GDS1S1DP, D3GDR0S1S1, D3GDR1S1S1, D3GDS0S1S1, D3GDS1S1S1, zero_mul, mul_zero, add_zero, zero_add, sub_zero]
  refine HasDerivAt.congr_deriv (by hdo) ?_
  ring

lemma c_D2GDS1DT {t p r0 r1 s0 s1 xfe2m4 xfe2m13 xfe2m2 xmg2m4 xmg2m13 xmg2m2 : ℝ → ℝ} {v dt dp dr0 dr1 ds0 ds1 : ℝ} (ht :
    HasDerivAt t dt v) (hp : HasDerivAt p dp v) (hr0 : HasDerivAt r0 dr0 v) (hr1 : HasDerivAt r1 dr1 v) (hs0 :
    HasDerivAt s0 ds0 v) (hs1 : HasDerivAt s1 ds1 v) (hxfe2m4 : HasDerivAt xfe2m4 ((1 / 2) * dr0 + (3 / 7) * ds0
    + (2 / 7) * ds1) v) (pxfe2m4 : 0 < xfe2m4 v) (hxfe2m13 : HasDerivAt xfe2m13 ((1 / 2) * dr0 + (-(4) / 7) *
    ds0 + (2 / 7) * ds1) v) (pxfe2m13 : 0 < xfe2m13 v) (hxfe2m2 : HasDerivAt xfe2m2 ((1 / 2) * dr0 + (3 / 7) *
    ds0 + (-(5) / 7) * ds1) v) (pxfe2m2 : 0 < xfe2m2 v) (hxmg2m4 : HasDerivAt xmg2m4 ((-(1) / 2) * dr0 + (-1) *
    dr1 + (-(3) / 7) * ds0 + (-(2) / 7) * ds1) v) (pxmg2m4 : 0 < xmg2m4 v) (hxmg2m13 : HasDerivAt xmg2m13 ((-(1)
    / 2) * dr0 + (4 / 7) * ds0 + (-(2) / 7) * ds1) v) (pxmg2m13 : 0 < xmg2m13 v) (hxmg2m2 : HasDerivAt xmg2m2
    ((-(1) / 2) * dr0 + (-(3) / 7) * ds0 + (5 / 7) * ds1) v) (pxmg2m2 : 0 < xmg2m2 v) :
    HasDerivAt (fun v => D2GDS1DT (r0 v) (r1 v) (s0 v) (s1 v) (xfe2m4 v) (xfe2m13 v) (xfe2m2 v) (xmg2m4 v) (xmg2m13 v) (xmg2m2 v))
    (((D3GDR0S1DT (r1 v) (xfe2m4 v) (xfe2m13 v) (xfe2m2 v) (xmg2m4 v) (xmg2m13 v) (xmg2m2 v)) * dr0 + (D3GDR1S1DT
    (r0 v) (r1 v) (s0 v) (s1 v) (xmg2m4 v)) * dr1) + (D3GDS1DT2 * dt + D3GDS1DTDP * dp) + ((D3GDS0S1DT (r1 v)
    (xfe2m4 v) (xfe2m13 v) (xfe2m2 v) (xmg2m4 v) (xmg2m13 v) (xmg2m2 v)) * ds0 + (D3GDS1S1DT (r1 v) (xfe2m4 v)
    (xfe2m13 v) (xfe2m2 v) (xmg2m4 v) (xmg2m13 v) (xmg2m2 v)) * ds1)) v := by
  have nxfe2m4 := pxfe2m4.ne'
  have nxfe2m13 := pxfe2m13.ne'
  have nxfe2m2 := pxfe2m2.ne'
  have nxmg2m4 := pxmg2m4.ne'
  have nxmg2m13 := pxmg2m13.ne'
  have nxmg2m2 := pxmg2m2.ne'
  try simp only [SS2, SRS2, SS13S2, SS2S2, SPS2, SPPS2, SRPS2, SPS2S2, SPS13S2, D2GDS1DT, D3GDS1DT2, D3GDS1DTDP, D3GDR0S1DT, D3GDR1S1DT, D3GDS0S1DT, D3GDS1S1DT, zero_mul, mul_zero, add_zero, zero_add, sub_zero]
  refine HasDerivAt.congr_deriv (by hdo) ?_
  ring

lemma c_D2GDS1DP {t p r0 r1 s0 s1 : ℝ → ℝ} {v dt dp dr0 dr1 ds0 ds1 : ℝ} (ht : HasDerivAt t dt v) (hp : HasDerivAt p dp v)
    (hr0 : HasDerivAt r0 dr0 v) (hr1 : HasDerivAt r1 dr1 v) (hs0 : HasDerivAt s0 ds0 v) (hs1 : HasDerivAt s1 ds1
    v) :
    HasDerivAt (fun v => D2GDS1DP (r0 v) (r1 v) (s0 v) (s1 v))
    (((D3GDR0S1DP (r1 v)) * dr0 + (D3GDR1S1DP (r0 v) (r1 v) (s0 v) (s1 v)) * dr1) + (D3GDS1DTDP * dt + D3GDS1DP2
    * dp) + ((D3GDS0S1DP (r1 v)) * ds0 + (D3GDS1S1DP (r1 v)) * ds1)) v := by
  try simp only [VS2, VRS2, VS13S2, VS2S2, VPS2, VPPS2, VRPS2, VPS2S2, VPS13S2, D2GDS1DP, D3GDS1DTDP, D3GDS1DP2, D3GDR0S1DP, D3GDR1S1DP, D3GDS0S1DP, D3GDS1S1DP, zero_mul, mul_zero, add_zero, zero_add, sub_zero]
  refine HasDerivAt.congr_deriv (by hdo) ?_
  ring

lemma c_D2GDT2 {t p r0 r1 s0 s1 : ℝ → ℝ} {v dt dp dr0 dr1 ds0 ds1 : ℝ} (ht : HasDerivAt t dt v) (hp : HasDerivAt p dp v)
    (hr0 : HasDerivAt r0 dr0 v) (hr1 : HasDerivAt r1 dr1 v) (hs0 : HasDerivAt s0 ds0 v) (hs1 : HasDerivAt s1 ds1
    v) :
    HasDerivAt (fun v => D2GDT2)
    ((D3GDR0DT2 * dr0 + D3GDR1DT2 * dr1) + (D3GDT3 * dt + D3GDT2DP * dp) + (D3GDS0DT2 * ds0 + D3GDS1DT2 * ds1)) v := by
  try simp only [D2GDT2, D3GDT3, D3GDT2DP, D3GDR0DT2, D3GDR1DT2, D3GDS0DT2, D3GDS1DT2, zero_mul, mul_zero, add_zero, zero_add, sub_zero]
  refine HasDerivAt.congr_deriv (by hdo) ?_
  ring

lemma c_D2GDTDP {t p r0 r1 s0 s1 : ℝ → ℝ} {v dt dp dr0 dr1 ds0 ds1 : ℝ} (ht : HasDerivAt t dt v) (hp : HasDerivAt p dp v)
    (hr0 : HasDerivAt r0 dr0 v) (hr1 : HasDerivAt r1 dr1 v) (hs0 : HasDerivAt s0 ds0 v) (hs1 : HasDerivAt s1 ds1
    v) :
    HasDerivAt (fun v => D2GDTDP)
    ((D3GDR0DTDP * dr0 + D3GDR1DTDP * dr1) + (D3GDT2DP * dt + D3GDTDP2 * dp) + (D3GDS0DTDP * ds0 + D3GDS1DTDP *
    ds1)) v := by
  try simp only [D2GDTDP, D3GDT2DP, D3GDTDP2, D3GDR0DTDP, D3GDR1DTDP, D3GDS0DTDP, D3GDS1DTDP, zero_mul, mul_zero, add_zero, zero_add, sub_zero]
  refine HasDerivAt.congr_deriv (by hdo) ?_
  ring

lemma c_D2GDP2 {t p r0 r1 s0 s1 : ℝ → ℝ} {v dt dp dr0 dr1 ds0 ds1 : ℝ} (ht : HasDerivAt t dt v) (hp : HasDerivAt p dp v)
    (hr0 : HasDerivAt r0 dr0 v) (hr1 : HasDerivAt r1 dr1 v) (hs0 : HasDerivAt s0 ds0 v) (hs1 : HasDerivAt s1 ds1
    v) :
    HasDerivAt (fun v => D2GDP2)
    ((D3GDR0DP2 * dr0 + D3GDR1DP2 * dr1) + (D3GDTDP2 * dt + D3GDP3 * dp) + (D3GDS0DP2 * ds0 + D3GDS1DP2 * ds1)) v := by
  try simp only [D2GDP2, D3GDTDP2, D3GDP3, D3GDR0DP2, D3GDR1DP2, D3GDS0DP2, D3GDS1DP2, zero_mul, mul_zero, add_zero, zero_add, sub_zero]
  refine HasDerivAt.congr_deriv (by hdo) ?_
  ring

attribute [local irreducible] SIC S H V G DGDR0 DGDR1 DGDS0 DGDS1 DGDT DGDP D2GDR0R0 D2GDR0R1 D2GDR0S0
    D2GDR0S1 D2GDR0DT D2GDR0DP D2GDR1R1 D2GDR1S0 D2GDR1S1 D2GDR1DT D2GDR1DP D2GDS0S0 D2GDS0S1 D2GDS0DT D2GDS0DP
    D2GDS1S1 D2GDS1DT D2GDS1DP D3GDR0R0R0 D3GDR0R0R1 D3GDR0R0S0 D3GDR0R0S1 D3GDR0R0DT D3GDR0R0DP D3GDR0R1R1
    D3GDR0R1S0 D3GDR0R1S1 D3GDR0R1DT D3GDR0R1DP D3GDR0S0S0 D3GDR0S0S1 D3GDR0S0DT D3GDR0S0DP D3GDR0S1S1
    D3GDR0S1DT D3GDR0S1DP D3GDR1R1R1 D3GDR1R1S0 D3GDR1R1S1 D3GDR1R1DT D3GDR1R1DP D3GDR1S0S0 D3GDR1S0S1
    D3GDR1S0DT D3GDR1S0DP D3GDR1S1S1 D3GDR1S1DT D3GDR1S1DP D3GDS0S0S0 D3GDS0S0S1 D3GDS0S0DT D3GDS0S0DP
    D3GDS0S1S1 D3GDS0S1DT D3GDS0S1DP D3GDS1S1S1 D3GDS1S1DT D3GDS1S1DP

lemma gr_g (y : Var 2 2 → ℝ) (hy : Dom y) :
    Gr (fun y => (tables (raw y) y).g) y ((tables (raw y) y).at1) := by
  refine Gr.of_lines ?_ fun u => ?_
  · have hp := pos y hy
    change DifferentiableAt ℝ (fun y => G (y (.inl iT)) (y (.inl (.inl 0))) (y (.inl (.inl 1))) (y (.inr 0)) (y (.inr 1)) (raw y 0) (raw y 1) (raw y 2) (raw y 3) (raw y 4) (raw y 5) (raw y 6)) y
    have d0 := raw_diff 0 y
    have q0 := hp.1
    have n0 := q0.ne'
    have d1 := raw_diff 1 y
    have q1 := hp.2.1
    have n1 := q1.ne'
    have d2 := raw_diff 2 y
    have q2 := hp.2.2.1
    have n2 := q2.ne'
    have d3 := raw_diff 3 y
    have q3 := hp.2.2.2.1
    have n3 := q3.ne'
    have d4 := raw_diff 4 y
    have q4 := hp.2.2.2.2.1
    have n4 := q4.ne'
    have d5 := raw_diff 5 y
    have q5 := hp.2.2.2.2.2.1
    have n5 := q5.ne'
    have d6 := raw_diff 6 y
    have q6 := hp.2.2.2.2.2.2
    have n6 := q6.ne'
    try simp only [SIC, G1, G2, cW123, W123, cW4, W4, cGX123_4, GX123_4, G0, GR, GEX, GDEX, GS13, GS2, GRR, cDZ, DZ, GRS13, GRS2, cGX13_24, GX13_24, GS13S13, cGX134_2, GX134_2, GS13S2, GS2S2, G3, cWCAFE, WCAFE, cWCAMG, WCAMG, cGXCA_13, GXCA_13, cGXCA_2, GXCA_2, cDWCAFE, DWCAFE, cDWCAMG, DWCAMG, GP, GRP, GPS13, GPS2, GPP, GPS13S13, GPPS13, GPPS2, GRPS13, GRPS2, GPS2S2, GPS13S2, GRRP, GRPP, GPPP, G, zero_mul, mul_zero, add_zero, zero_add, sub_zero]
    ddo
  · have hp := pos y hy
    have h := c_G (hl y u ((.inl iT))) (hl y u ((.inl iP))) (hl y u ((.inl (.inl 0)))) (hl y u ((.inl (.inl
        1)))) (hl y u ((.inr 0))) (hl y u ((.inr 1))) (raw_line0 y u) (by simpa only [zero_mul,
        add_zero] using hp.1) (raw_line1 y u) (by simpa only [zero_mul, add_zero] using hp.2.1)
        (raw_line2 y u) (by simpa only [zero_mul, add_zero] using hp.2.2.1) (raw_line3 y u) (by
        simpa only [zero_mul, add_zero] using hp.2.2.2.1) (raw_line4 y u) (by simpa only
        [zero_mul, add_zero] using hp.2.2.2.2.1) (raw_line5 y u) (by simpa only [zero_mul,
        add_zero] using hp.2.2.2.2.2.1) (raw_line6 y u) (by simpa only [zero_mul, add_zero] using
        hp.2.2.2.2.2.2)
    try simp only [zero_mul, add_zero] at h
    refine h.congr_deriv ?_
    rw [sum_var]; simp only [Fin.sum_univ_two]; rfl

lemma gr_dgdr_0 (y : Var 2 2 → ℝ) (hy : Dom y) :
    Gr (fun y => (tables (raw y) y).dgdr 0) y ((tables (raw y) y).at2 (.inl (.inl 0))) := by
  refine Gr.of_lines ?_ fun u => ?_
  · have hp := pos y hy
    change DifferentiableAt ℝ (fun y => DGDR0 (y (.inl iT)) (y (.inl (.inl 0))) (y (.inl (.inl 1))) (y (.inr 0)) (y (.inr 1)) (raw y 1) (raw y 2) (raw y 3) (raw y 4) (raw y 5) (raw y 6)) y
    have d1 := raw_diff 1 y
    have q1 := hp.2.1
    have n1 := q1.ne'
    have d2 := raw_diff 2 y
    have q2 := hp.2.2.1
    have n2 := q2.ne'
    have d3 := raw_diff 3 y
    have q3 := hp.2.2.2.1
    have n3 := q3.ne'
    have d4 := raw_diff 4 y
    have q4 := hp.2.2.2.2.1
    have n4 := q4.ne'
    have d5 := raw_diff 5 y
    have q5 := hp.2.2.2.2.2.1
    have n5 := q5.ne'
    have d6 := raw_diff 6 y
    have q6 := hp.2.2.2.2.2.2
    have n6 := q6.ne'
    try simp only [G1, G2, GR, cW123, W123, cW4, W4, cGX123_4, GX123_4, GRR, cDZ, DZ, GRS13, GRS2, cWCAFE, WCAFE, cWCAMG, WCAMG, cGXCA_13, GXCA_13, cGXCA_2, GXCA_2, cDWCAFE, DWCAFE, cDWCAMG, DWCAMG, GRP, GRPS13, GRPS2, GRRP, GRPP, DGDR0, zero_mul, mul_zero, add_zero, zero_add, sub_zero]
    ddo
  · have hp := pos y hy
    have h := c_DGDR0 (hl y u ((.inl iT))) (hl y u ((.inl iP))) (hl y u ((.inl (.inl 0)))) (hl y u ((.inl (.inl
        1)))) (hl y u ((.inr 0))) (hl y u ((.inr 1))) (raw_line1 y u) (by simpa only [zero_mul,
        add_zero] using hp.2.1) (raw_line2 y u) (by simpa only [zero_mul, add_zero] using
        hp.2.2.1) (raw_line3 y u) (by simpa only [zero_mul, add_zero] using hp.2.2.2.1) (raw_line4
        y u) (by simpa only [zero_mul, add_zero] using hp.2.2.2.2.1) (raw_line5 y u) (by simpa
        only [zero_mul, add_zero] using hp.2.2.2.2.2.1) (raw_line6 y u) (by simpa only [zero_mul,
        add_zero] using hp.2.2.2.2.2.2)
    try simp only [zero_mul, add_zero] at h
    refine h.congr_deriv ?_
    rw [sum_var]; simp only [Fin.sum_univ_two]; rfl

lemma gr_dgdr_1 (y : Var 2 2 → ℝ) (hy : Dom y) :
    Gr (fun y => (tables (raw y) y).dgdr 1) y ((tables (raw y) y).at2 (.inl (.inl 1))) := by
  refine Gr.of_lines ?_ fun u => ?_
  · have hp := pos y hy
    change DifferentiableAt ℝ (fun y => DGDR1 (y (.inl iT)) (y (.inl (.inl 0))) (y (.inl (.inl 1))) (y (.inr 0)) (y (.inr 1)) (raw y 0) (raw y 4)) y
    have d0 := raw_diff 0 y
    have q0 := hp.1
    have n0 := q0.ne'
    have d4 := raw_diff 4 y
    have q4 := hp.2.2.2.2.1
    have n4 := q4.ne'
    try simp only [G1, G3, cW4, W4, cWCAFE, WCAFE, cWCAMG, WCAMG, cGXCA_13, GXCA_13, cGXCA_2, GXCA_2, cDWCAFE, DWCAFE, cDWCAMG, DWCAMG, GP, GRP, GPS13, GPS2, GPP, GPS13S13, GPPS13, GPPS2, GRPS13, GRPS2, GPS2S2, GPS13S2, GRRP, GRPP, GPPP, DGDR1, zero_mul, mul_zero, add_zero, zero_add, sub_zero]
    ddo
  · have hp := pos y hy
    have h := c_DGDR1 (hl y u ((.inl iT))) (hl y u ((.inl iP))) (hl y u ((.inl (.inl 0)))) (hl y u ((.inl (.inl
        1)))) (hl y u ((.inr 0))) (hl y u ((.inr 1))) (raw_line0 y u) (by simpa only [zero_mul,
        add_zero] using hp.1) (raw_line4 y u) (by simpa only [zero_mul, add_zero] using
        hp.2.2.2.2.1)
    try simp only [zero_mul, add_zero] at h
    refine h.congr_deriv ?_
    rw [sum_var]; simp only [Fin.sum_univ_two]; rfl

lemma gr_dgds_0 (y : Var 2 2 → ℝ) (hy : Dom y) :
    Gr (fun y => (tables (raw y) y).dgds 0) y ((tables (raw y) y).at2 (.inr 0)) := by
  refine Gr.of_lines ?_ fun u => ?_
  · have hp := pos y hy
    change DifferentiableAt ℝ (fun y => DGDS0 (y (.inl iT)) (y (.inl (.inl 0))) (y (.inl (.inl 1))) (y (.inr 0)) (y (.inr 1)) (raw y 1) (raw y 2) (raw y 3) (raw y 4) (raw y 5) (raw y 6)) y
    have d1 := raw_diff 1 y
    have q1 := hp.2.1
    have n1 := q1.ne'
    have d2 := raw_diff 2 y
    have q2 := hp.2.2.1
    have n2 := q2.ne'
    have d3 := raw_diff 3 y
    have q3 := hp.2.2.2.1
    have n3 := q3.ne'
    have d4 := raw_diff 4 y
    have q4 := hp.2.2.2.2.1
    have n4 := q4.ne'
    have d5 := raw_diff 5 y
    have q5 := hp.2.2.2.2.2.1
    have n5 := q5.ne'
    have d6 := raw_diff 6 y
    have q6 := hp.2.2.2.2.2.2
    have n6 := q6.ne'
    try simp only [GEX, GDEX, GS13, cW123, W123, cW4, W4, cGX123_4, GX123_4, cDZ, DZ, GRS13, cGX13_24, GX13_24, GS13S13, cGX134_2, GX134_2, GS13S2, cWCAFE, WCAFE, cWCAMG, WCAMG, cGXCA_13, GXCA_13, cGXCA_2, GXCA_2, cDWCAFE, DWCAFE, cDWCAMG, DWCAMG, GPS13, GPS13S13, GPPS13, GRPS13, GPS13S2, DGDS0, zero_mul, mul_zero, add_zero, zero_add, sub_zero]
    ddo
  · have hp := pos y hy
    have h := c_DGDS0 (hl y u ((.inl iT))) (hl y u ((.inl iP))) (hl y u ((.inl (.inl 0)))) (hl y u ((.inl (.inl
        1)))) (hl y u ((.inr 0))) (hl y u ((.inr 1))) (raw_line1 y u) (by simpa only [zero_mul,
        add_zero] using hp.2.1) (raw_line2 y u) (by simpa only [zero_mul, add_zero] using
        hp.2.2.1) (raw_line3 y u) (by simpa only [zero_mul, add_zero] using hp.2.2.2.1) (raw_line4
        y u) (by simpa only [zero_mul, add_zero] using hp.2.2.2.2.1) (raw_line5 y u) (by simpa
        only [zero_mul, add_zero] using hp.2.2.2.2.2.1) (raw_line6 y u) (by simpa only [zero_mul,
        add_zero] using hp.2.2.2.2.2.2)
    try simp only [zero_mul, add_zero] at h
    refine h.congr_deriv ?_
    rw [sum_var]; simp only [Fin.sum_univ_two]; rfl

lemma gr_dgds_1 (y : Var 2 2 → ℝ) (hy : Dom y) :
    Gr (fun y => (tables (raw y) y).dgds 1) y ((tables (raw y) y).at2 (.inr 1)) := by
  refine Gr.of_lines ?_ fun u => ?_
  · have hp := pos y hy
    change DifferentiableAt ℝ (fun y => DGDS1 (y (.inl iT)) (y (.inl (.inl 0))) (y (.inl (.inl 1))) (y (.inr 0)) (y (.inr 1)) (raw y 1) (raw y 2) (raw y 3) (raw y 4) (raw y 5) (raw y 6)) y
    have d1 := raw_diff 1 y
    have q1 := hp.2.1
    have n1 := q1.ne'
    have d2 := raw_diff 2 y
    have q2 := hp.2.2.1
    have n2 := q2.ne'
    have d3 := raw_diff 3 y
    have q3 := hp.2.2.2.1
    have n3 := q3.ne'
    have d4 := raw_diff 4 y
    have q4 := hp.2.2.2.2.1
    have n4 := q4.ne'
    have d5 := raw_diff 5 y
    have q5 := hp.2.2.2.2.2.1
    have n5 := q5.ne'
    have d6 := raw_diff 6 y
    have q6 := hp.2.2.2.2.2.2
    have n6 := q6.ne'
    try simp only [GEX, GDEX, GS2, cW123, W123, cW4, W4, cGX123_4, GX123_4, cDZ, DZ, GRS2, cGX13_24, GX13_24, cGX134_2, GX134_2, GS13S2, GS2S2, cWCAFE, WCAFE, cWCAMG, WCAMG, cGXCA_13, GXCA_13, cGXCA_2, GXCA_2, cDWCAFE, DWCAFE, cDWCAMG, DWCAMG, GPS2, GPPS2, GRPS2, GPS2S2, GPS13S2, DGDS1, zero_mul, mul_zero, add_zero, zero_add, sub_zero]
    ddo
  · have hp := pos y hy
    have h := c_DGDS1 (hl y u ((.inl iT))) (hl y u ((.inl iP))) (hl y u ((.inl (.inl 0)))) (hl y u ((.inl (.inl
        1)))) (hl y u ((.inr 0))) (hl y u ((.inr 1))) (raw_line1 y u) (by simpa only [zero_mul,
        add_zero] using hp.2.1) (raw_line2 y u) (by simpa only [zero_mul, add_zero] using
        hp.2.2.1) (raw_line3 y u) (by simpa only [zero_mul, add_zero] using hp.2.2.2.1) (raw_line4
        y u) (by simpa only [zero_mul, add_zero] using hp.2.2.2.2.1) (raw_line5 y u) (by simpa
        only [zero_mul, add_zero] using hp.2.2.2.2.2.1) (raw_line6 y u) (by simpa only [zero_mul,
        add_zero] using hp.2.2.2.2.2.2)
    try simp only [zero_mul, add_zero] at h
    refine h.congr_deriv ?_
    rw [sum_var]; simp only [Fin.sum_univ_two]; rfl

lemma gr_dgdt (y : Var 2 2 → ℝ) (hy : Dom y) :
    Gr (fun y => (tables (raw y) y).dgdt) y ((tables (raw y) y).at2 (.inl iT)) := by
  refine Gr.of_lines ?_ fun u => ?_
  · have hp := pos y hy
    change DifferentiableAt ℝ (fun y => DGDT (y (.inl (.inl 0))) (y (.inl (.inl 1))) (y (.inr 0)) (y (.inr 1)) (raw y 0) (raw y 1) (raw y 2) (raw y 3) (raw y 4) (raw y 5) (raw y 6)) y
    have d0 := raw_diff 0 y
    have q0 := hp.1
    have n0 := q0.ne'
    have d1 := raw_diff 1 y
    have q1 := hp.2.1
    have n1 := q1.ne'
    have d2 := raw_diff 2 y
    have q2 := hp.2.2.1
    have n2 := q2.ne'
    have d3 := raw_diff 3 y
    have q3 := hp.2.2.2.1
    have n3 := q3.ne'
    have d4 := raw_diff 4 y
    have q4 := hp.2.2.2.2.1
    have n4 := q4.ne'
    have d5 := raw_diff 5 y
    have q5 := hp.2.2.2.2.2.1
    have n5 := q5.ne'
    have d6 := raw_diff 6 y
    have q6 := hp.2.2.2.2.2.2
    have n6 := q6.ne'
    try simp only [SIC, S1, S2, S0, SR, SS13, SS2, SRR, SRS13, SRS2, SS13S13, SS13S2, SS2S2, S3, SP, SRP, SPS13, SPS2, SPP, SPS13S13, SPPS13, SPPS2, SRPS13, SRPS2, SPS2S2, SPS13S2, SRRP, SRPP, SPPP, S, DGDT, zero_mul, mul_zero, add_zero, zero_add, sub_zero]
    ddo
  · have hp := pos y hy
    have h := c_DGDT (hl y u ((.inl iT))) (hl y u ((.inl iP))) (hl y u ((.inl (.inl 0)))) (hl y u ((.inl (.inl
        1)))) (hl y u ((.inr 0))) (hl y u ((.inr 1))) (raw_line0 y u) (by simpa only [zero_mul,
        add_zero] using hp.1) (raw_line1 y u) (by simpa only [zero_mul, add_zero] using hp.2.1)
        (raw_line2 y u) (by simpa only [zero_mul, add_zero] using hp.2.2.1) (raw_line3 y u) (by
        simpa only [zero_mul, add_zero] using hp.2.2.2.1) (raw_line4 y u) (by simpa only
        [zero_mul, add_zero] using hp.2.2.2.2.1) (raw_line5 y u) (by simpa only [zero_mul,
        add_zero] using hp.2.2.2.2.2.1) (raw_line6 y u) (by simpa only [zero_mul, add_zero] using
        hp.2.2.2.2.2.2)
    try simp only [zero_mul, add_zero] at h
    refine h.congr_deriv ?_
    rw [sum_var]; simp only [Fin.sum_univ_two]; rfl

lemma gr_dgdp (y : Var 2 2 → ℝ) (hy : Dom y) :
    Gr (fun y => (tables (raw y) y).dgdp) y ((tables (raw y) y).at2 (.inl iP)) := by
  refine Gr.of_lines ?_ fun u => ?_
  · have hp := pos y hy
    change DifferentiableAt ℝ (fun y => DGDP (y (.inl (.inl 0))) (y (.inl (.inl 1))) (y (.inr 0)) (y (.inr 1))) y
    try simp only [V1, V2, V0, VR, VS13, VS2, VRR, VRS13, VRS2, VS13S13, VS13S2, VS2S2, V3, VP, VRP, VPS13, VPS2, VPP, VPS13S13, VPPS13, VPPS2, VRPS13, VRPS2, VPS2S2, VPS13S2, VRRP, VRPP, VPPP, V, DGDP, zero_mul, mul_zero, add_zero, zero_add, sub_zero]
    ddo
  · have hp := pos y hy
    have h := c_DGDP (hl y u ((.inl iT))) (hl y u ((.inl iP))) (hl y u ((.inl (.inl 0)))) (hl y u ((.inl (.inl
        1)))) (hl y u ((.inr 0))) (hl y u ((.inr 1)))
    try simp only [zero_mul, add_zero] at h
    refine h.congr_deriv ?_
    rw [sum_var]; simp only [Fin.sum_univ_two]; rfl

lemma gr_d2gdr2_0_0 (y : Var 2 2 → ℝ) (hy : Dom y) :
    Gr (fun y => (tables (raw y) y).d2gdr2 0 0) y ((tables (raw y) y).at3 (.inl (.inl 0)) (.inl (.inl 0))) := by
  refine Gr.of_lines ?_ fun u => ?_
  · have hp := pos y hy
    change DifferentiableAt ℝ (fun y => D2GDR0R0 (y (.inl iT)) (y (.inl (.inl 1))) (raw y 1) (raw y 2) (raw y 3) (raw y 4) (raw y 5) (raw y 6)) y
    have d1 := raw_diff 1 y
    have q1 := hp.2.1
    have n1 := q1.ne'
    have d2 := raw_diff 2 y
    have q2 := hp.2.2.1
    have n2 := q2.ne'
    have d3 := raw_diff 3 y
    have q3 := hp.2.2.2.1
    have n3 := q3.ne'
    have d4 := raw_diff 4 y
    have q4 := hp.2.2.2.2.1
    have n4 := q4.ne'
    have d5 := raw_diff 5 y
    have q5 := hp.2.2.2.2.2.1
    have n5 := q5.ne'
    have d6 := raw_diff 6 y
    have q6 := hp.2.2.2.2.2.2
    have n6 := q6.ne'
    try simp only [cW123, W123, cW4, W4, cGX123_4, GX123_4, GRR, cDWCAFE, DWCAFE, cDWCAMG, DWCAMG, GRRP, D2GDR0R0, zero_mul, mul_zero, add_zero, zero_add, sub_zero]
    ddo
  · have hp := pos y hy
    have h := c_D2GDR0R0 (hl y u ((.inl iT))) (hl y u ((.inl iP))) (hl y u ((.inl (.inl 0)))) (hl y u ((.inl (.inl
        1)))) (hl y u ((.inr 0))) (hl y u ((.inr 1))) (raw_line1 y u) (by simpa only [zero_mul,
        add_zero] using hp.2.1) (raw_line2 y u) (by simpa only [zero_mul, add_zero] using
        hp.2.2.1) (raw_line3 y u) (by simpa only [zero_mul, add_zero] using hp.2.2.2.1) (raw_line4
        y u) (by simpa only [zero_mul, add_zero] using hp.2.2.2.2.1) (raw_line5 y u) (by simpa
        only [zero_mul, add_zero] using hp.2.2.2.2.2.1) (raw_line6 y u) (by simpa only [zero_mul,
        add_zero] using hp.2.2.2.2.2.2)
    try simp only [zero_mul, add_zero] at h
    refine h.congr_deriv ?_
    rw [sum_var]; simp only [Fin.sum_univ_two]; rfl

lemma gr_d2gdr2_0_1 (y : Var 2 2 → ℝ) (hy : Dom y) :
    Gr (fun y => (tables (raw y) y).d2gdr2 0 1) y ((tables (raw y) y).at3 (.inl (.inl 0)) (.inl (.inl 1))) := by
  refine Gr.of_lines ?_ fun u => ?_
  · have hp := pos y hy
    change DifferentiableAt ℝ (fun y => D2GDR0R1 (y (.inl iT)) (y (.inl (.inl 0))) (y (.inl (.inl 1))) (y (.inr 0)) (y (.inr 1)) (raw y 4)) y
    have d4 := raw_diff 4 y
    have q4 := hp.2.2.2.2.1
    have n4 := q4.ne'
    try simp only [cW4, W4, cWCAFE, WCAFE, cWCAMG, WCAMG, cGXCA_13, GXCA_13, cGXCA_2, GXCA_2, cDWCAFE, DWCAFE, cDWCAMG, DWCAMG, GRP, GRPS13, GRPS2, GRRP, GRPP, D2GDR0R1, zero_mul, mul_zero, add_zero, zero_add, sub_zero]
    ddo
  · have hp := pos y hy
    have h := c_D2GDR0R1 (hl y u ((.inl iT))) (hl y u ((.inl iP))) (hl y u ((.inl (.inl 0)))) (hl y u ((.inl (.inl
        1)))) (hl y u ((.inr 0))) (hl y u ((.inr 1))) (raw_line4 y u) (by simpa only [zero_mul,
        add_zero] using hp.2.2.2.2.1)
    try simp only [zero_mul, add_zero] at h
    refine h.congr_deriv ?_
    rw [sum_var]; simp only [Fin.sum_univ_two]; rfl

lemma gr_d2gdrds_0_0 (y : Var 2 2 → ℝ) (hy : Dom y) :
    Gr (fun y => (tables (raw y) y).d2gdrds 0 0) y ((tables (raw y) y).at3 (.inl (.inl 0)) (.inr 0)) := by
  refine Gr.of_lines ?_ fun u => ?_
  · have hp := pos y hy
    change DifferentiableAt ℝ (fun y => D2GDR0S0 (y (.inl iT)) (y (.inl (.inl 1))) (raw y 1) (raw y 2) (raw y 3) (raw y 4) (raw y 5) (raw y 6)) y
    have d1 := raw_diff 1 y
    have q1 := hp.2.1
    have n1 := q1.ne'
    have d2 := raw_diff 2 y
    have q2 := hp.2.2.1
    have n2 := q2.ne'
    have d3 := raw_diff 3 y
    have q3 := hp.2.2.2.1
    have n3 := q3.ne'
    have d4 := raw_diff 4 y
    have q4 := hp.2.2.2.2.1
    have n4 := q4.ne'
    have d5 := raw_diff 5 y
    have q5 := hp.2.2.2.2.2.1
    have n5 := q5.ne'
    have d6 := raw_diff 6 y
    have q6 := hp.2.2.2.2.2.2
    have n6 := q6.ne'
    try simp only [cW123, W123, cW4, W4, cGX123_4, GX123_4, cDZ, DZ, GRS13, cDWCAFE, DWCAFE, cDWCAMG, DWCAMG, GRPS13, D2GDR0S0, zero_mul, mul_zero, add_zero, zero_add, sub_zero]
    ddo
  · have hp := pos y hy
    have h := c_D2GDR0S0 (hl y u ((.inl iT))) (hl y u ((.inl iP))) (hl y u ((.inl (.inl 0)))) (hl y u ((.inl (.inl
        1)))) (hl y u ((.inr 0))) (hl y u ((.inr 1))) (raw_line1 y u) (by simpa only [zero_mul,
        add_zero] using hp.2.1) (raw_line2 y u) (by simpa only [zero_mul, add_zero] using
        hp.2.2.1) (raw_line3 y u) (by simpa only [zero_mul, add_zero] using hp.2.2.2.1) (raw_line4
        y u) (by simpa only [zero_mul, add_zero] using hp.2.2.2.2.1) (raw_line5 y u) (by simpa
        only [zero_mul, add_zero] using hp.2.2.2.2.2.1) (raw_line6 y u) (by simpa only [zero_mul,
        add_zero] using hp.2.2.2.2.2.2)
    try simp only [zero_mul, add_zero] at h
    refine h.congr_deriv ?_
    rw [sum_var]; simp only [Fin.sum_univ_two]; rfl

lemma gr_d2gdrds_0_1 (y : Var 2 2 → ℝ) (hy : Dom y) :
    Gr (fun y => (tables (raw y) y).d2gdrds 0 1) y ((tables (raw y) y).at3 (.inl (.inl 0)) (.inr 1)) := by
  refine Gr.of_lines ?_ fun u => ?_
  · have hp := pos y hy
    change DifferentiableAt ℝ (fun y => D2GDR0S1 (y (.inl iT)) (y (.inl (.inl 1))) (raw y 1) (raw y 2) (raw y 3) (raw y 4) (raw y 5) (raw y 6)) y
    have d1 := raw_diff 1 y
    have q1 := hp.2.1
    have n1 := q1.ne'
    have d2 := raw_diff 2 y
    have q2 := hp.2.2.1
    have n2 := q2.ne'
    have d3 := raw_diff 3 y
    have q3 := hp.2.2.2.1
    have n3 := q3.ne'
    have d4 := raw_diff 4 y
    have q4 := hp.2.2.2.2.1
    have n4 := q4.ne'
    have d5 := raw_diff 5 y
    have q5 := hp.2.2.2.2.2.1
    have n5 := q5.ne'
    have d6 := raw_diff 6 y
    have q6 := hp.2.2.2.2.2.2
    have n6 := q6.ne'
    try simp only [cW123, W123, cW4, W4, cGX123_4, GX123_4, cDZ, DZ, GRS2, cDWCAFE, DWCAFE, cDWCAMG, DWCAMG, GRPS2, D2GDR0S1, zero_mul, mul_zero, add_zero, zero_add, sub_zero]
    ddo
  · have hp := pos y hy
    have h := c_D2GDR0S1 (hl y u ((.inl iT))) (hl y u ((.inl iP))) (hl y u ((.inl (.inl 0)))) (hl y u ((.inl (.inl
        1)))) (hl y u ((.inr 0))) (hl y u ((.inr 1))) (raw_line1 y u) (by simpa only [zero_mul,
        add_zero] using hp.2.1) (raw_line2 y u) (by simpa only [zero_mul, add_zero] using
        hp.2.2.1) (raw_line3 y u) (by simpa only [zero_mul, add_zero] using hp.2.2.2.1) (raw_line4
        y u) (by simpa only [zero_mul, add_zero] using hp.2.2.2.2.1) (raw_line5 y u) (by simpa
        only [zero_mul, add_zero] using hp.2.2.2.2.2.1) (raw_line6 y u) (by simpa only [zero_mul,
        add_zero] using hp.2.2.2.2.2.2)
    try simp only [zero_mul, add_zero] at h
    refine h.congr_deriv ?_
    rw [sum_var]; simp only [Fin.sum_univ_two]; rfl

lemma gr_d2gdrdt_0 (y : Var 2 2 → ℝ) (hy : Dom y) :
    Gr (fun y => (tables (raw y) y).d2gdrdt 0) y ((tables (raw y) y).at3 (.inl (.inl 0)) (.inl iT)) := by
  refine Gr.of_lines ?_ fun u => ?_
  · have hp := pos y hy
    change DifferentiableAt ℝ (fun y => D2GDR0DT (y (.inl (.inl 0))) (y (.inl (.inl 1))) (y (.inr 0)) (y (.inr 1)) (raw y 1) (raw y 2) (raw y 3) (raw y 4) (raw y 5) (raw y 6)) y
    have d1 := raw_diff 1 y
    have q1 := hp.2.1
    have n1 := q1.ne'
    have d2 := raw_diff 2 y
    have q2 := hp.2.2.1
    have n2 := q2.ne'
    have d3 := raw_diff 3 y
    have q3 := hp.2.2.2.1
    have n3 := q3.ne'
    have d4 := raw_diff 4 y
    have q4 := hp.2.2.2.2.1
    have n4 := q4.ne'
    have d5 := raw_diff 5 y
    have q5 := hp.2.2.2.2.2.1
    have n5 := q5.ne'
    have d6 := raw_diff 6 y
    have q6 := hp.2.2.2.2.2.2
    have n6 := q6.ne'
    try simp only [S1, S2, SR, SRR, SRS13, SRS2, SRP, SRPS13, SRPS2, SRRP, SRPP, D2GDR0DT, zero_mul, mul_zero, add_zero, zero_add, sub_zero]
    ddo
  · have hp := pos y hy
    have h := c_D2GDR0DT (hl y u ((.inl iT))) (hl y u ((.inl iP))) (hl y u ((.inl (.inl 0)))) (hl y u ((.inl (.inl
        1)))) (hl y u ((.inr 0))) (hl y u ((.inr 1))) (raw_line1 y u) (by simpa only [zero_mul,
        add_zero] using hp.2.1) (raw_line2 y u) (by simpa only [zero_mul, add_zero] using
        hp.2.2.1) (raw_line3 y u) (by simpa only [zero_mul, add_zero] using hp.2.2.2.1) (raw_line4
        y u) (by simpa only [zero_mul, add_zero] using hp.2.2.2.2.1) (raw_line5 y u) (by simpa
        only [zero_mul, add_zero] using hp.2.2.2.2.2.1) (raw_line6 y u) (by simpa only [zero_mul,
        add_zero] using hp.2.2.2.2.2.2)
    try simp only [zero_mul, add_zero] at h
    refine h.congr_deriv ?_
    rw [sum_var]; simp only [Fin.sum_univ_two]; rfl

lemma gr_d2gdrdp_0 (y : Var 2 2 → ℝ) (hy : Dom y) :
    Gr (fun y => (tables (raw y) y).d2gdrdp 0) y ((tables (raw y) y).at3 (.inl (.inl 0)) (.inl iP)) := by
  refine Gr.of_lines ?_ fun u => ?_
  · have hp := pos y hy
    change DifferentiableAt ℝ (fun y => D2GDR0DP (y (.inl (.inl 0))) (y (.inl (.inl 1))) (y (.inr 0)) (y (.inr 1))) y
    try simp only [V1, V2, VR, VRR, VRS13, VRS2, VRP, VRPS13, VRPS2, VRRP, VRPP, D2GDR0DP, zero_mul, mul_zero, add_zero, zero_add, sub_zero]
    ddo
  · have hp := pos y hy
    have h := c_D2GDR0DP (hl y u ((.inl iT))) (hl y u ((.inl iP))) (hl y u ((.inl (.inl 0)))) (hl y u ((.inl (.inl
        1)))) (hl y u ((.inr 0))) (hl y u ((.inr 1)))
    try simp only [zero_mul, add_zero] at h
    refine h.congr_deriv ?_
    rw [sum_var]; simp only [Fin.sum_univ_two]; rfl

lemma gr_d2gdr2_1_1 (y : Var 2 2 → ℝ) (hy : Dom y) :
    Gr (fun y => (tables (raw y) y).d2gdr2 1 1) y ((tables (raw y) y).at3 (.inl (.inl 1)) (.inl (.inl 1))) := by
  refine Gr.of_lines ?_ fun u => ?_
  · have hp := pos y hy
    change DifferentiableAt ℝ (fun y => D2GDR1R1 (y (.inl iT)) (y (.inl (.inl 0))) (y (.inl (.inl 1))) (y (.inr 0)) (y (.inr 1)) (raw y 0) (raw y 4)) y
    have d0 := raw_diff 0 y
    have q0 := hp.1
    have n0 := q0.ne'
    have d4 := raw_diff 4 y
    have q4 := hp.2.2.2.2.1
    have n4 := q4.ne'
    try simp only [cWCAMG, WCAMG, cDWCAFE, DWCAFE, cDWCAMG, DWCAMG, GPP, GPPS13, GPPS2, GRPP, GPPP, D2GDR1R1, zero_mul, mul_zero, add_zero, zero_add, sub_zero]
    ddo
  · have hp := pos y hy
    have h := c_D2GDR1R1 (hl y u ((.inl iT))) (hl y u ((.inl iP))) (hl y u ((.inl (.inl 0)))) (hl y u ((.inl (.inl
        1)))) (hl y u ((.inr 0))) (hl y u ((.inr 1))) (raw_line0 y u) (by simpa only [zero_mul,
        add_zero] using hp.1) (raw_line4 y u) (by simpa only [zero_mul, add_zero] using
        hp.2.2.2.2.1)
    try simp only [zero_mul, add_zero] at h
    refine h.congr_deriv ?_
    rw [sum_var]; simp only [Fin.sum_univ_two]; rfl

lemma gr_d2gdrds_1_0 (y : Var 2 2 → ℝ) (hy : Dom y) :
    Gr (fun y => (tables (raw y) y).d2gdrds 1 0) y ((tables (raw y) y).at3 (.inl (.inl 1)) (.inr 0)) := by
  refine Gr.of_lines ?_ fun u => ?_
  · have hp := pos y hy
    change DifferentiableAt ℝ (fun y => D2GDR1S0 (y (.inl iT)) (y (.inl (.inl 0))) (y (.inl (.inl 1))) (y (.inr 0)) (y (.inr 1)) (raw y 4)) y
    have d4 := raw_diff 4 y
    have q4 := hp.2.2.2.2.1
    have n4 := q4.ne'
    try simp only [cW4, W4, cWCAFE, WCAFE, cWCAMG, WCAMG, cGXCA_13, GXCA_13, cGXCA_2, GXCA_2, cDWCAFE, DWCAFE, cDWCAMG, DWCAMG, GPS13, GPS13S13, GPPS13, GRPS13, GPS13S2, D2GDR1S0, zero_mul, mul_zero, add_zero, zero_add, sub_zero]
    ddo
  · have hp := pos y hy
    have h := c_D2GDR1S0 (hl y u ((.inl iT))) (hl y u ((.inl iP))) (hl y u ((.inl (.inl 0)))) (hl y u ((.inl (.inl
        1)))) (hl y u ((.inr 0))) (hl y u ((.inr 1))) (raw_line4 y u) (by simpa only [zero_mul,
        add_zero] using hp.2.2.2.2.1)
    try simp only [zero_mul, add_zero] at h
    refine h.congr_deriv ?_
    rw [sum_var]; simp only [Fin.sum_univ_two]; rfl

lemma gr_d2gdrds_1_1 (y : Var 2 2 → ℝ) (hy : Dom y) :
    Gr (fun y => (tables (raw y) y).d2gdrds 1 1) y ((tables (raw y) y).at3 (.inl (.inl 1)) (.inr 1)) := by
  refine Gr.of_lines ?_ fun u => ?_
  · have hp := pos y hy
    change DifferentiableAt ℝ (fun y => D2GDR1S1 (y (.inl iT)) (y (.inl (.inl 0))) (y (.inl (.inl 1))) (y (.inr 0)) (y (.inr 1)) (raw y 4)) y
    have d4 := raw_diff 4 y
    have q4 := hp.2.2.2.2.1
    have n4 := q4.ne'
    try simp only [cW4, W4, cWCAFE, WCAFE, cWCAMG, WCAMG, cGXCA_13, GXCA_13, cGXCA_2, GXCA_2, cDWCAFE, DWCAFE, cDWCAMG, DWCAMG, GPS2, GPPS2, GRPS2, GPS2S2, GPS13S2, D2GDR1S1, zero_mul, mul_zero, add_zero, zero_add, sub_zero]
    ddo
  · have hp := pos y hy
    have h := c_D2GDR1S1 (hl y u ((.inl iT))) (hl y u ((.inl iP))) (hl y u ((.inl (.inl 0)))) (hl y u ((.inl (.inl
        1)))) (hl y u ((.inr 0))) (hl y u ((.inr 1))) (raw_line4 y u) (by simpa only [zero_mul,
        add_zero] using hp.2.2.2.2.1)
    try simp only [zero_mul, add_zero] at h
    refine h.congr_deriv ?_
    rw [sum_var]; simp only [Fin.sum_univ_two]; rfl

lemma gr_d2gdrdt_1 (y : Var 2 2 → ℝ) (hy : Dom y) :
    Gr (fun y => (tables (raw y) y).d2gdrdt 1) y ((tables (raw y) y).at3 (.inl (.inl 1)) (.inl iT)) := by
  refine Gr.of_lines ?_ fun u => ?_
  · have hp := pos y hy
    change DifferentiableAt ℝ (fun y => D2GDR1DT (y (.inl (.inl 0))) (y (.inl (.inl 1))) (y (.inr 0)) (y (.inr 1)) (raw y 0) (raw y 4)) y
    have d0 := raw_diff 0 y
    have q0 := hp.1
    have n0 := q0.ne'
    have d4 := raw_diff 4 y
    have q4 := hp.2.2.2.2.1
    have n4 := q4.ne'
    try simp only [S1, S3, SP, SRP, SPS13, SPS2, SPP, SPS13S13, SPPS13, SPPS2, SRPS13, SRPS2, SPS2S2, SPS13S2, SRRP, SRPP, SPPP, D2GDR1DT, zero_mul, mul_zero, add_zero, zero_add, sub_zero]
    ddo
  · have hp := pos y hy
    have h := c_D2GDR1DT (hl y u ((.inl iT))) (hl y u ((.inl iP))) (hl y u ((.inl (.inl 0)))) (hl y u ((.inl (.inl
        1)))) (hl y u ((.inr 0))) (hl y u ((.inr 1))) (raw_line0 y u) (by simpa only [zero_mul,
        add_zero] using hp.1) (raw_line4 y u) (by simpa only [zero_mul, add_zero] using
        hp.2.2.2.2.1)
    try simp only [zero_mul, add_zero] at h
    refine h.congr_deriv ?_
    rw [sum_var]; simp only [Fin.sum_univ_two]; rfl

lemma gr_d2gdrdp_1 (y : Var 2 2 → ℝ) (hy : Dom y) :
    Gr (fun y => (tables (raw y) y).d2gdrdp 1) y ((tables (raw y) y).at3 (.inl (.inl 1)) (.inl iP)) := by
  refine Gr.of_lines ?_ fun u => ?_
  · have hp := pos y hy
    change DifferentiableAt ℝ (fun y => D2GDR1DP (y (.inl (.inl 0))) (y (.inl (.inl 1))) (y (.inr 0)) (y (.inr 1))) y
    try simp only [V1, V3, VP, VRP, VPS13, VPS2, VPP, VPS13S13, VPPS13, VPPS2, VRPS13, VRPS2, VPS2S2, VPS13S2, VRRP, VRPP, VPPP, D2GDR1DP, zero_mul, mul_zero, add_zero, zero_add, sub_zero]
    ddo
  · have hp := pos y hy
    have h := c_D2GDR1DP (hl y u ((.inl iT))) (hl y u ((.inl iP))) (hl y u ((.inl (.inl 0)))) (hl y u ((.inl (.inl
        1)))) (hl y u ((.inr 0))) (hl y u ((.inr 1)))
    try simp only [zero_mul, add_zero] at h
    refine h.congr_deriv ?_
    rw [sum_var]; simp only [Fin.sum_univ_two]; rfl

lemma gr_d2gds2_0_0 (y : Var 2 2 → ℝ) (hy : Dom y) :
    Gr (fun y => (tables (raw y) y).d2gds2 0 0) y ((tables (raw y) y).at3 (.inr 0) (.inr 0)) := by
  refine Gr.of_lines ?_ fun u => ?_
  · have hp := pos y hy
    change DifferentiableAt ℝ (fun y => D2GDS0S0 (y (.inl iT)) (y (.inl (.inl 1))) (raw y 1) (raw y 2) (raw y 3) (raw y 4) (raw y 5) (raw y 6)) y
    have d1 := raw_diff 1 y
    have q1 := hp.2.1
    have n1 := q1.ne'
    have d2 := raw_diff 2 y
    have q2 := hp.2.2.1
    have n2 := q2.ne'
    have d3 := raw_diff 3 y
    have q3 := hp.2.2.2.1
    have n3 := q3.ne'
    have d4 := raw_diff 4 y
    have q4 := hp.2.2.2.2.1
    have n4 := q4.ne'
    have d5 := raw_diff 5 y
    have q5 := hp.2.2.2.2.2.1
    have n5 := q5.ne'
    have d6 := raw_diff 6 y
    have q6 := hp.2.2.2.2.2.2
    have n6 := q6.ne'
    try simp only [cW123, W123, cW4, W4, cGX123_4, GX123_4, cGX13_24, GX13_24, cDZ, DZ, GS13S13, cDWCAFE, DWCAFE, cDWCAMG, DWCAMG, GPS13S13, D2GDS0S0, zero_mul, mul_zero, add_zero, zero_add, sub_zero]
    ddo
  · have hp := pos y hy
    have h := c_D2GDS0S0 (hl y u ((.inl iT))) (hl y u ((.inl iP))) (hl y u ((.inl (.inl 0)))) (hl y u ((.inl (.inl
        1)))) (hl y u ((.inr 0))) (hl y u ((.inr 1))) (raw_line1 y u) (by simpa only [zero_mul,
        add_zero] using hp.2.1) (raw_line2 y u) (by simpa only [zero_mul, add_zero] using
        hp.2.2.1) (raw_line3 y u) (by simpa only [zero_mul, add_zero] using hp.2.2.2.1) (raw_line4
        y u) (by simpa only [zero_mul, add_zero] using hp.2.2.2.2.1) (raw_line5 y u) (by simpa
        only [zero_mul, add_zero] using hp.2.2.2.2.2.1) (raw_line6 y u) (by simpa only [zero_mul,
        add_zero] using hp.2.2.2.2.2.2)
    try simp only [zero_mul, add_zero] at h
    refine h.congr_deriv ?_
    rw [sum_var]; simp only [Fin.sum_univ_two]; rfl

lemma gr_d2gds2_0_1 (y : Var 2 2 → ℝ) (hy : Dom y) :
    Gr (fun y => (tables (raw y) y).d2gds2 0 1) y ((tables (raw y) y).at3 (.inr 0) (.inr 1)) := by
  refine Gr.of_lines ?_ fun u => ?_
  · have hp := pos y hy
    change DifferentiableAt ℝ (fun y => D2GDS0S1 (y (.inl iT)) (y (.inl (.inl 1))) (raw y 1) (raw y 2) (raw y 3) (raw y 4) (raw y 5) (raw y 6)) y
    have d1 := raw_diff 1 y
    have q1 := hp.2.1
    have n1 := q1.ne'
    have d2 := raw_diff 2 y
    have q2 := hp.2.2.1
    have n2 := q2.ne'
    have d3 := raw_diff 3 y
    have q3 := hp.2.2.2.1
    have n3 := q3.ne'
    have d4 := raw_diff 4 y
    have q4 := hp.2.2.2.2.1
    have n4 := q4.ne'
    have d5 := raw_diff 5 y
    have q5 := hp.2.2.2.2.2.1
    have n5 := q5.ne'
    have d6 := raw_diff 6 y
    have q6 := hp.2.2.2.2.2.2
    have n6 := q6.ne'
    try simp only [cW123, W123, cW4, W4, cGX123_4, GX123_4, cGX13_24, GX13_24, cGX134_2, GX134_2, cDZ, DZ, GS13S2, cDWCAFE, DWCAFE, cDWCAMG, DWCAMG, GPS13S2, D2GDS0S1, zero_mul, mul_zero, add_zero, zero_add, sub_zero]
    ddo
  · have hp := pos y hy
    have h := c_D2GDS0S1 (hl y u ((.inl iT))) (hl y u ((.inl iP))) (hl y u ((.inl (.inl 0)))) (hl y u ((.inl (.inl
        1)))) (hl y u ((.inr 0))) (hl y u ((.inr 1))) (raw_line1 y u) (by simpa only [zero_mul,
        add_zero] using hp.2.1) (raw_line2 y u) (by simpa only [zero_mul, add_zero] using
        hp.2.2.1) (raw_line3 y u) (by simpa only [zero_mul, add_zero] using hp.2.2.2.1) (raw_line4
        y u) (by simpa only [zero_mul, add_zero] using hp.2.2.2.2.1) (raw_line5 y u) (by simpa
        only [zero_mul, add_zero] using hp.2.2.2.2.2.1) (raw_line6 y u) (by simpa only [zero_mul,
        add_zero] using hp.2.2.2.2.2.2)
    try simp only [zero_mul, add_zero] at h
    refine h.congr_deriv ?_
    rw [sum_var]; simp only [Fin.sum_univ_two]; rfl

lemma gr_d2gdsdt_0 (y : Var 2 2 → ℝ) (hy : Dom y) :
    Gr (fun y => (tables (raw y) y).d2gdsdt 0) y ((tables (raw y) y).at3 (.inr 0) (.inl iT)) := by
  refine Gr.of_lines ?_ fun u => ?_
  · have hp := pos y hy
    change DifferentiableAt ℝ (fun y => D2GDS0DT (y (.inl (.inl 0))) (y (.inl (.inl 1))) (y (.inr 0)) (y (.inr 1)) (raw y 1) (raw y 2) (raw y 3) (raw y 4) (raw y 5) (raw y 6)) y
    have d1 := raw_diff 1 y
    have q1 := hp.2.1
    have n1 := q1.ne'
    have d2 := raw_diff 2 y
    have q2 := hp.2.2.1
    have n2 := q2.ne'
    have d3 := raw_diff 3 y
    have q3 := hp.2.2.2.1
    have n3 := q3.ne'
    have d4 := raw_diff 4 y
    have q4 := hp.2.2.2.2.1
    have n4 := q4.ne'
    have d5 := raw_diff 5 y
    have q5 := hp.2.2.2.2.2.1
    have n5 := q5.ne'
    have d6 := raw_diff 6 y
    have q6 := hp.2.2.2.2.2.2
    have n6 := q6.ne'
    try simp only [SS13, SRS13, SS13S13, SS13S2, SPS13, SPS13S13, SPPS13, SRPS13, SPS13S2, D2GDS0DT, zero_mul, mul_zero, add_zero, zero_add, sub_zero]
    ddo
  · have hp := pos y hy
    have h := c_D2GDS0DT (hl y u ((.inl iT))) (hl y u ((.inl iP))) (hl y u ((.inl (.inl 0)))) (hl y u ((.inl (.inl
        1)))) (hl y u ((.inr 0))) (hl y u ((.inr 1))) (raw_line1 y u) (by simpa only [zero_mul,
        add_zero] using hp.2.1) (raw_line2 y u) (by simpa only [zero_mul, add_zero] using
        hp.2.2.1) (raw_line3 y u) (by simpa only [zero_mul, add_zero] using hp.2.2.2.1) (raw_line4
        y u) (by simpa only [zero_mul, add_zero] using hp.2.2.2.2.1) (raw_line5 y u) (by simpa
        only [zero_mul, add_zero] using hp.2.2.2.2.2.1) (raw_line6 y u) (by simpa only [zero_mul,
        add_zero] using hp.2.2.2.2.2.2)
    try simp only [zero_mul, add_zero] at h
    refine h.congr_deriv ?_
    rw [sum_var]; simp only [Fin.sum_univ_two]; rfl

lemma gr_d2gdsdp_0 (y : Var 2 2 → ℝ) (hy : Dom y) :
    Gr (fun y => (tables (raw y) y).d2gdsdp 0) y ((tables (raw y) y).at3 (.inr 0) (.inl iP)) := by
  refine Gr.of_lines ?_ fun u => ?_
  · have hp := pos y hy
    change DifferentiableAt ℝ (fun y => D2GDS0DP (y (.inl (.inl 0))) (y (.inl (.inl 1))) (y (.inr 0)) (y (.inr 1))) y
    try simp only [VS13, VRS13, VS13S13, VS13S2, VPS13, VPS13S13, VPPS13, VRPS13, VPS13S2, D2GDS0DP, zero_mul, mul_zero, add_zero, zero_add, sub_zero]
    ddo
  · have hp := pos y hy
    have h := c_D2GDS0DP (hl y u ((.inl iT))) (hl y u ((.inl iP))) (hl y u ((.inl (.inl 0)))) (hl y u ((.inl (.inl
        1)))) (hl y u ((.inr 0))) (hl y u ((.inr 1)))
    try simp only [zero_mul, add_zero] at h
    refine h.congr_deriv ?_
    rw [sum_var]; simp only [Fin.sum_univ_two]; rfl

lemma gr_d2gds2_1_1 (y : Var 2 2 → ℝ) (hy : Dom y) :
    Gr (fun y => (tables (raw y) y).d2gds2 1 1) y ((tables (raw y) y).at3 (.inr 1) (.inr 1)) := by
  refine Gr.of_lines ?_ fun u => ?_
  · have hp := pos y hy
    change DifferentiableAt ℝ (fun y => D2GDS1S1 (y (.inl iT)) (y (.inl (.inl 1))) (raw y 1) (raw y 2) (raw y 3) (raw y 4) (raw y 5) (raw y 6)) y
    have d1 := raw_diff 1 y
    have q1 := hp.2.1
    have n1 := q1.ne'
    have d2 := raw_diff 2 y
    have q2 := hp.2.2.1
    have n2 := q2.ne'
    have d3 := raw_diff 3 y
    have q3 := hp.2.2.2.1
    have n3 := q3.ne'
    have d4 := raw_diff 4 y
    have q4 := hp.2.2.2.2.1
    have n4 := q4.ne'
    have d5 := raw_diff 5 y
    have q5 := hp.2.2.2.2.2.1
    have n5 := q5.ne'
    have d6 := raw_diff 6 y
    have q6 := hp.2.2.2.2.2.2
    have n6 := q6.ne'
    try simp only [cW123, W123, cW4, W4, cGX123_4, GX123_4, cGX134_2, GX134_2, cDZ, DZ, GS2S2, cDWCAFE, DWCAFE, cDWCAMG, DWCAMG, GPS2S2, D2GDS1S1, zero_mul, mul_zero, add_zero, zero_add, sub_zero]
    ddo
  · have hp := pos y hy
    have h := c_D2GDS1S1 (hl y u ((.inl iT))) (hl y u ((.inl iP))) (hl y u ((.inl (.inl 0)))) (hl y u ((.inl (.inl
        1)))) (hl y u ((.inr 0))) (hl y u ((.inr 1))) (raw_line1 y u) (by simpa only [zero_mul,
        add_zero] using hp.2.1) (raw_line2 y u) (by simpa only [zero_mul, add_zero] using
        hp.2.2.1) (raw_line3 y u) (by simpa only [zero_mul, add_zero] using hp.2.2.2.1) (raw_line4
        y u) (by simpa only [zero_mul, add_zero] using hp.2.2.2.2.1) (raw_line5 y u) (by simpa
        only [zero_mul, add_zero] using hp.2.2.2.2.2.1) (raw_line6 y u) (by simpa only [zero_mul,
        add_zero] using hp.2.2.2.2.2.2)
    try simp only [zero_mul, add_zero] at h
    refine h.congr_deriv ?_
    rw [sum_var]; simp only [Fin.sum_univ_two]; rfl

lemma gr_d2gdsdt_1 (y : Var 2 2 → ℝ) (hy : Dom y) :
    Gr (fun y => (tables (raw y) y).d2gdsdt 1) y ((tables (raw y) y).at3 (.inr 1) (.inl iT)) := by
  refine Gr.of_lines ?_ fun u => ?_
  · have hp := pos y hy
    change DifferentiableAt ℝ (fun y => D2GDS1DT (y (.inl (.inl 0))) (y (.inl (.inl 1))) (y (.inr 0)) (y (.inr 1)) (raw y 1) (raw y 2) (raw y 3) (raw y 4) (raw y 5) (raw y 6)) y
    have d1 := raw_diff 1 y
    have q1 := hp.2.1
    have n1 := q1.ne'
    have d2 := raw_diff 2 y
    have q2 := hp.2.2.1
    have n2 := q2.ne'
    have d3 := raw_diff 3 y
    have q3 := hp.2.2.2.1
    have n3 := q3.ne'
    have d4 := raw_diff 4 y
    have q4 := hp.2.2.2.2.1
    have n4 := q4.ne'
    have d5 := raw_diff 5 y
    have q5 := hp.2.2.2.2.2.1
    have n5 := q5.ne'
    have d6 := raw_diff 6 y
    have q6 := hp.2.2.2.2.2.2
    have n6 := q6.ne'
    try simp only [SS2, SRS2, SS13S2, SS2S2, SPS2, SPPS2, SRPS2, SPS2S2, SPS13S2, D2GDS1DT, zero_mul, mul_zero, add_zero, zero_add, sub_zero]
    ddo
  · have hp := pos y hy
    have h := c_D2GDS1DT (hl y u ((.inl iT))) (hl y u ((.inl iP))) (hl y u ((.inl (.inl 0)))) (hl y u ((.inl (.inl
        1)))) (hl y u ((.inr 0))) (hl y u ((.inr 1))) (raw_line1 y u) (by simpa only [zero_mul,
        add_zero] using hp.2.1) (raw_line2 y u) (by simpa only [zero_mul, add_zero] using
        hp.2.2.1) (raw_line3 y u) (by simpa only [zero_mul, add_zero] using hp.2.2.2.1) (raw_line4
        y u) (by simpa only [zero_mul, add_zero] using hp.2.2.2.2.1) (raw_line5 y u) (by simpa
        only [zero_mul, add_zero] using hp.2.2.2.2.2.1) (raw_line6 y u) (by simpa only [zero_mul,
        add_zero] using hp.2.2.2.2.2.2)
    try simp only [zero_mul, add_zero] at h
    refine h.congr_deriv ?_
    rw [sum_var]; simp only [Fin.sum_univ_two]; rfl

lemma gr_d2gdsdp_1 (y : Var 2 2 → ℝ) (hy : Dom y) :
    Gr (fun y => (tables (raw y) y).d2gdsdp 1) y ((tables (raw y) y).at3 (.inr 1) (.inl iP)) := by
  refine Gr.of_lines ?_ fun u => ?_
  · have hp := pos y hy
    change DifferentiableAt ℝ (fun y => D2GDS1DP (y (.inl (.inl 0))) (y (.inl (.inl 1))) (y (.inr 0)) (y (.inr 1))) y
    try simp only [VS2, VRS2, VS13S2, VS2S2, VPS2, VPPS2, VRPS2, VPS2S2, VPS13S2, D2GDS1DP, zero_mul, mul_zero, add_zero, zero_add, sub_zero]
    ddo
  · have hp := pos y hy
    have h := c_D2GDS1DP (hl y u ((.inl iT))) (hl y u ((.inl iP))) (hl y u ((.inl (.inl 0)))) (hl y u ((.inl (.inl
        1)))) (hl y u ((.inr 0))) (hl y u ((.inr 1)))
    try simp only [zero_mul, add_zero] at h
    refine h.congr_deriv ?_
    rw [sum_var]; simp only [Fin.sum_univ_two]; rfl

lemma gr_d2gdt2 (y : Var 2 2 → ℝ) (hy : Dom y) :
    Gr (fun y => (tables (raw y) y).d2gdt2) y ((tables (raw y) y).at3 (.inl iT) (.inl iT)) := by
  refine Gr.of_lines ?_ fun u => ?_
  · have hp := pos y hy
    change DifferentiableAt ℝ (fun y => D2GDT2) y
    try simp only [D2GDT2, zero_mul, mul_zero, add_zero, zero_add, sub_zero]
    ddo
  · have hp := pos y hy
    have h := c_D2GDT2 (hl y u ((.inl iT))) (hl y u ((.inl iP))) (hl y u ((.inl (.inl 0)))) (hl y u ((.inl (.inl
        1)))) (hl y u ((.inr 0))) (hl y u ((.inr 1)))
    try simp only [zero_mul, add_zero] at h
    refine h.congr_deriv ?_
    rw [sum_var]; simp only [Fin.sum_univ_two]; rfl

lemma gr_d2gdtdp (y : Var 2 2 → ℝ) (hy : Dom y) :
    Gr (fun y => (tables (raw y) y).d2gdtdp) y ((tables (raw y) y).at3 (.inl iT) (.inl iP)) := by
  refine Gr.of_lines ?_ fun u => ?_
  · have hp := pos y hy
    change DifferentiableAt ℝ (fun y => D2GDTDP) y
    try simp only [D2GDTDP, zero_mul, mul_zero, add_zero, zero_add, sub_zero]
    ddo
  · have hp := pos y hy
    have h := c_D2GDTDP (hl y u ((.inl iT))) (hl y u ((.inl iP))) (hl y u ((.inl (.inl 0)))) (hl y u ((.inl (.inl
        1)))) (hl y u ((.inr 0))) (hl y u ((.inr 1)))
    try simp only [zero_mul, add_zero] at h
    refine h.congr_deriv ?_
    rw [sum_var]; simp only [Fin.sum_univ_two]; rfl

lemma gr_d2gdp2 (y : Var 2 2 → ℝ) (hy : Dom y) :
    Gr (fun y => (tables (raw y) y).d2gdp2) y ((tables (raw y) y).at3 (.inl iP) (.inl iP)) := by
  refine Gr.of_lines ?_ fun u => ?_
  · have hp := pos y hy
    change DifferentiableAt ℝ (fun y => D2GDP2) y
    try simp only [D2GDP2, zero_mul, mul_zero, add_zero, zero_add, sub_zero]
    ddo
  · have hp := pos y hy
    have h := c_D2GDP2 (hl y u ((.inl iT))) (hl y u ((.inl iP))) (hl y u ((.inl (.inl 0)))) (hl y u ((.inl (.inl
        1)))) (hl y u ((.inr 0))) (hl y u ((.inr 1)))
    try simp only [zero_mul, add_zero] at h
    refine h.congr_deriv ?_
    rw [sum_var]; simp only [Fin.sum_univ_two]; rfl

lemma symm (x : Fin 7 → ℝ) (y : Var 2 2 → ℝ) : (tables x y).Symm := by
  constructor
  · intro i j; fin_cases i <;> fin_cases j <;> rfl
  · intro i j; fin_cases i <;> fin_cases j <;> rfl
  · intro i j k; fin_cases i <;> fin_cases j <;> fin_cases k <;> exact ⟨rfl, rfl⟩
  · intro i j k; fin_cases i <;> fin_cases j <;> fin_cases k <;> rfl
  · intro i j; fin_cases i <;> fin_cases j <;> rfl
  · intro i j; fin_cases i <;> fin_cases j <;> rfl
  · intro i j k; fin_cases i <;> fin_cases j <;> fin_cases k <;> rfl
  · intro i j k; fin_cases i <;> fin_cases j <;> fin_cases k <;> exact ⟨rfl, rfl⟩
  · intro i j; fin_cases i <;> fin_cases j <;> rfl
  · intro i j; fin_cases i <;> fin_cases j <;> rfl

lemma ok_raw : (jets fun y => tables (raw y) y).Ok Dom := by
  refine jets_ok (fun y _ => symm (raw y) y) gr_g ?_ gr_dgdt gr_dgdp ?_ ?_ ?_ ?_ ?_ ?_ ?_ ?_ gr_d2gdt2 gr_d2gdtdp gr_d2gdp2
  · intro y hy i
    fin_cases i
    · exact gr_dgdr_0 y hy
    · exact gr_dgdr_1 y hy
  · intro y hy i
    fin_cases i
    · exact gr_dgds_0 y hy
    · exact gr_dgds_1 y hy
  · intro y hy i j
    fin_cases i <;> fin_cases j
    · exact gr_d2gdr2_0_0 y hy
    · exact gr_d2gdr2_0_1 y hy
    · exact (gr_d2gdr2_0_1 y hy).congr_d (funext fun k => ((symm (raw y) y).at3 _ _ k).1)
    · exact gr_d2gdr2_1_1 y hy
  · intro y hy i j
    fin_cases i <;> fin_cases j
    · exact gr_d2gdrds_0_0 y hy
    · exact gr_d2gdrds_0_1 y hy
    · exact gr_d2gdrds_1_0 y hy
    · exact gr_d2gdrds_1_1 y hy
  · intro y hy i
    fin_cases i
    · exact gr_d2gdrdt_0 y hy
    · exact gr_d2gdrdt_1 y hy
  · intro y hy i
    fin_cases i
    · exact gr_d2gdrdp_0 y hy
    · exact gr_d2gdrdp_1 y hy
  · intro y hy i j
    fin_cases i <;> fin_cases j
    · exact gr_d2gds2_0_0 y hy
    · exact gr_d2gds2_0_1 y hy
    · exact (gr_d2gds2_0_1 y hy).congr_d (funext fun k => ((symm (raw y) y).at3 _ _ k).1)
    · exact gr_d2gds2_1_1 y hy
  · intro y hy i
    fin_cases i
    · exact gr_d2gdsdt_0 y hy
    · exact gr_d2gdsdt_1 y hy
  · intro y hy i
    fin_cases i
    · exact gr_d2gdsdp_0 y hy
    · exact gr_d2gdsdp_1 y hy

lemma site_eq (y : Var 2 2 → ℝ) (hy : Dom y) : site y = raw y := by
  obtain ⟨h0, h1, h2, h3, h4, h5, h6⟩ := hy
  funext k; fin_cases k
  · exact rfl
  · exact rfl
  · exact rfl
  · exact rfl
  · exact rfl
  · exact rfl
  · exact rfl

lemma dom_open : IsOpen {y | Dom y} := by
  have hc : ∀ k, Continuous fun y => raw y k := fun k =>
    continuous_iff_continuousAt.2 fun y => (raw_diff k y).continuousAt
  exact (isOpen_lt continuous_const (hc 0)).inter ((isOpen_lt continuous_const (hc 1)).inter ((isOpen_lt
    continuous_const (hc 2)).inter ((isOpen_lt continuous_const (hc 3)).inter ((isOpen_lt continuous_const (hc
    4)).inter ((isOpen_lt continuous_const (hc 5)).inter (isOpen_lt continuous_const (hc 6)))))))

/-- The arrays of amphibole.c are the derivatives of its Gibbs energy to third order. -/
theorem ok : (jets macros).Ok Dom :=
  ok_congr dom_open (fun y hy => by unfold macros; rw [site_eq y hy]) ok_raw

lemma entropy_eq (y : Var 2 2 → ℝ) : (jets macros).g1 y (.inl iT) = -(macros y).s := by
  change DGDT (y (.inl (.inl 0))) (y (.inl (.inl 1))) (y (.inr 0)) (y (.inr 1)) (site y 0) (site y 1) (site y 2) (site y 3) (site y 4) (site y 5) (site y 6) = -(S (y (.inl (.inl 0))) (y (.inl (.inl 1))) (y (.inr 0)) (y (.inr 1)) (site y 0) (site y 1) (site y 2) (site y 3) (site y 4) (site y 5) (site y 6))
  simp only [DGDT]

end Clinoamphibole

end

end Verif.Thermo.Ordering
