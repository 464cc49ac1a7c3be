import Verif.Thermo.OrderLogs

/-!
Melilite. Generated by /verif/tools/gen/genord.py from the macros of /repo/sources/melilite.c: one definition per macro, with the
macros it mentions as definitions (the generator checks that this has the value of C's textual substitution).
-/

namespace Verif.Thermo.Ordering

open Magma.Thermo.Mixing (R)

noncomputable section

set_option linter.unusedVariables false
set_option linter.unnecessarySeqFocus false
set_option linter.unusedSimpArgs false
set_option linter.unusedTactic false
set_option linter.unreachableTactic false

namespace Melilite

/-- `S`, melilite.c 1139-1141. -/
def S (xCaOct xNaOct xMg2T1 xFe2T1 xAl3T1 xSi4T1 xAl3T2 xSi4T2 : ℝ) : ℝ :=
  (-R) * (2 * xCaOct * Real.log xCaOct + 2 * xNaOct * Real.log xNaOct + xMg2T1 * Real.log xMg2T1 + xFe2T1 *
    Real.log xFe2T1 + xAl3T1 * Real.log xAl3T1 + xSi4T1 * Real.log xSi4T1 + 2 * xAl3T2 * Real.log xAl3T2 + 2 *
    xSi4T2 * Real.log xSi4T2)

/-- `DG22p`, melilite.c 108. -/
def DG22p : ℝ :=
  12000

/-- `W12p`, melilite.c 110. -/
def W12p : ℝ :=
  13000

/-- `W12`, melilite.c 109. -/
def W12 : ℝ :=
  9000

/-- `W22p`, melilite.c 113. -/
def W22p : ℝ :=
  38354

/-- `W13`, melilite.c 111. -/
def W13 : ℝ :=
  16000

/-- `W23`, melilite.c 114. -/
def W23 : ℝ :=
  9000

/-- `W2p3`, melilite.c 115. -/
def W2p3 : ℝ :=
  13000

/-- `W14`, melilite.c 112. -/
def W14 : ℝ :=
  0

/-- `W24`, melilite.c 116. -/
def W24 : ℝ :=
  9000

/-- `W34`, melilite.c 118. -/
def W34 : ℝ :=
  0

/-- `W2p4`, melilite.c 117. -/
def W2p4 : ℝ :=
  13000

/-- `H`, melilite.c 1142-1146. -/
def H (r0 r1 r2 s0 : ℝ) : ℝ :=
  (DG22p + W12p - W12) * s0 + W12 * r0 * (1 - r0) - W22p * s0 * s0 + W13 * r1 * (1 - r1) + (W22p - W12p + W12)
    * r0 * s0 + (W23 - W12 - W13) * r0 * r1 + (W2p3 - W23 - W12p + W12) * r1 * s0 + W14 * r2 * (1 - r2) + (W24 -
    W14 - W12) * r0 * r2 + (W34 - W14 - W13) * r1 * r2 + (W2p4 - W24 - W12p + W12) * r2 * s0

/-- `V`, melilite.c 1147. -/
def V : ℝ :=
  0

/-- `G`, melilite.c 1148. -/
def G (t p r0 r1 r2 s0 xCaOct xNaOct xMg2T1 xFe2T1 xAl3T1 xSi4T1 xAl3T2 xSi4T2 : ℝ) : ℝ :=
  H r0 r1 r2 s0 - t * (S xCaOct xNaOct xMg2T1 xFe2T1 xAl3T1 xSi4T1 xAl3T2 xSi4T2) + (p - 1) * V

/-- `DGDR0`, melilite.c 1150-1152. -/
def DGDR0 (t r0 r1 r2 s0 xMg2T1 xAl3T1 xAl3T2 xSi4T2 : ℝ) : ℝ :=
  R * t * (-Real.log xMg2T1 + Real.log xAl3T1 + Real.log xAl3T2 - Real.log xSi4T2) + W12 * (1 - 2 * r0) +
    (W22p - W12p + W12) * s0 + (W23 - W12 - W13) * r1 + (W24 - W14 - W12) * r2

/-- `DGDR1`, melilite.c 1153-1155. -/
def DGDR1 (t r0 r1 r2 s0 xMg2T1 xFe2T1 : ℝ) : ℝ :=
  R * t * (-Real.log xMg2T1 + Real.log xFe2T1) + W13 * (1 - 2 * r1) + (W23 - W12 - W13) * r0 + (W2p3 - W23 -
    W12p + W12) * s0 + (W34 - W14 - W13) * r2

/-- `DGDR2`, melilite.c 1156-1158. -/
def DGDR2 (t r0 r1 r2 s0 xCaOct xNaOct xMg2T1 xSi4T1 : ℝ) : ℝ :=
  R * t * ((-2) * Real.log xCaOct + 2 * Real.log xNaOct - Real.log xMg2T1 + Real.log xSi4T1) + W14 * (1 - 2 *
    r2) + (W24 - W14 - W12) * r0 + (W34 - W14 - W13) * r1 + (W2p4 - W24 - W12p + W12) * s0

/-- `DGDS0`, melilite.c 1159-1161. -/
def DGDS0 (t r0 r1 r2 s0 xAl3T1 xSi4T1 xAl3T2 xSi4T2 : ℝ) : ℝ :=
  R * t * (-Real.log xAl3T1 + Real.log xSi4T1 + Real.log xAl3T2 - Real.log xSi4T2) + (DG22p + W12p - W12) - 2
    * W22p * s0 + (W22p - W12p + W12) * r0 + (W2p3 - W23 - W12p + W12) * r1 + (W2p4 - W24 - W12p + W12) * r2

/-- `DGDT`, melilite.c 1162. -/
def DGDT (xCaOct xNaOct xMg2T1 xFe2T1 xAl3T1 xSi4T1 xAl3T2 xSi4T2 : ℝ) : ℝ :=
  -(S xCaOct xNaOct xMg2T1 xFe2T1 xAl3T1 xSi4T1 xAl3T2 xSi4T2)

/-- `DGDP`, melilite.c 1163. -/
def DGDP : ℝ :=
  V

/-- `D2GDR0R0`, melilite.c 1165. -/
def D2GDR0R0 (t xMg2T1 xAl3T1 xAl3T2 xSi4T2 : ℝ) : ℝ :=
  R * t * (1 / xMg2T1 + 1 / xAl3T1 + (1 / 2) / xAl3T2 + (1 / 2) / xSi4T2) - 2 * W12

/-- `D2GDR0R1`, melilite.c 1166. -/
def D2GDR0R1 (t xMg2T1 : ℝ) : ℝ :=
  R * t * (1 / xMg2T1) + (W23 - W12 - W13)

/-- `D2GDR0R2`, melilite.c 1167. -/
def D2GDR0R2 (t xMg2T1 : ℝ) : ℝ :=
  R * t * (1 / xMg2T1) + (W24 - W14 - W12)

/-- `D2GDR0S0`, melilite.c 1168. -/
def D2GDR0S0 (t xAl3T1 xAl3T2 xSi4T2 : ℝ) : ℝ :=
  R * t * ((-1) / xAl3T1 + (1 / 2) / xAl3T2 + (1 / 2) / xSi4T2) + (W22p - W12p + W12)

/-- `D2GDR0DT`, melilite.c 1169. -/
def D2GDR0DT (xMg2T1 xAl3T1 xAl3T2 xSi4T2 : ℝ) : ℝ :=
  R * (-Real.log xMg2T1 + Real.log xAl3T1 + Real.log xAl3T2 - Real.log xSi4T2)

/-- `D2GDR0DP`, melilite.c 1170. -/
def D2GDR0DP : ℝ :=
  0

/-- `D2GDR1R1`, melilite.c 1172. -/
def D2GDR1R1 (t xMg2T1 xFe2T1 : ℝ) : ℝ :=
  R * t * (1 / xMg2T1 + 1 / xFe2T1) - 2 * W13

/-- `D2GDR1R2`, melilite.c 1173. -/
def D2GDR1R2 (t xMg2T1 : ℝ) : ℝ :=
  R * t * (1 / xMg2T1) + (W34 - W14 - W13)

/-- `D2GDR1S0`, melilite.c 1174. -/
def D2GDR1S0 : ℝ :=
  W2p3 - W23 - W12p + W12

/-- `D2GDR1DT`, melilite.c 1175. -/
def D2GDR1DT (xMg2T1 xFe2T1 : ℝ) : ℝ :=
  R * (-Real.log xMg2T1 + Real.log xFe2T1)

/-- `D2GDR1DP`, melilite.c 1176. -/
def D2GDR1DP : ℝ :=
  0

/-- `D2GDR2R2`, melilite.c 1178. -/
def D2GDR2R2 (t xCaOct xNaOct xMg2T1 xSi4T1 : ℝ) : ℝ :=
  R * t * (2 / xCaOct + 2 / xNaOct + 1 / xMg2T1 + 1 / xSi4T1) - 2 * W14

/-- `D2GDR2S0`, melilite.c 1179. -/
def D2GDR2S0 (t xSi4T1 : ℝ) : ℝ :=
  R * t * (1 / xSi4T1) + (W2p4 - W24 - W12p + W12)

/-- `D2GDR2DT`, melilite.c 1180. -/
def D2GDR2DT (xCaOct xNaOct xMg2T1 xSi4T1 : ℝ) : ℝ :=
  R * ((-2) * Real.log xCaOct + 2 * Real.log xNaOct - Real.log xMg2T1 + Real.log xSi4T1)

/-- `D2GDR2DP`, melilite.c 1181. -/
def D2GDR2DP : ℝ :=
  0

/-- `D2GDS0S0`, melilite.c 1183. -/
def D2GDS0S0 (t xAl3T1 xSi4T1 xAl3T2 xSi4T2 : ℝ) : ℝ :=
  R * t * (1 / xAl3T1 + 1 / xSi4T1 + (1 / 2) / xAl3T2 + (1 / 2) / xSi4T2) - 2 * W22p

/-- `D2GDS0DT`, melilite.c 1184. -/
def D2GDS0DT (xAl3T1 xSi4T1 xAl3T2 xSi4T2 : ℝ) : ℝ :=
  R * (-Real.log xAl3T1 + Real.log xSi4T1 + Real.log xAl3T2 - Real.log xSi4T2)

/-- `D2GDS0DP`, melilite.c 1185. -/
def D2GDS0DP : ℝ :=
  0

/-- `D2GDT2`, melilite.c 1187. -/
def D2GDT2 : ℝ :=
  0

/-- `D2GDTDP`, melilite.c 1188. -/
def D2GDTDP : ℝ :=
  0

/-- `D2GDP2`, melilite.c 1189. -/
def D2GDP2 : ℝ :=
  0

/-- `D3GDR0R0R0`, melilite.c 1191-1192. -/
def D3GDR0R0R0 (t xMg2T1 xAl3T1 xAl3T2 xSi4T2 : ℝ) : ℝ :=
  R * t * (1 / (xMg2T1 * xMg2T1) - 1 / (xAl3T1 * xAl3T1) - (1 / 4) / (xAl3T2 * xAl3T2) + (1 / 4) / (xSi4T2 *
    xSi4T2))

/-- `D3GDR0R0R1`, melilite.c 1193. -/
def D3GDR0R0R1 (t xMg2T1 : ℝ) : ℝ :=
  R * t * (1 / (xMg2T1 * xMg2T1))

/-- `D3GDR0R0R2`, melilite.c 1194. -/
def D3GDR0R0R2 (t xMg2T1 : ℝ) : ℝ :=
  R * t * (1 / (xMg2T1 * xMg2T1))

/-- `D3GDR0R0S0`, melilite.c 1195. -/
def D3GDR0R0S0 (t xAl3T1 xAl3T2 xSi4T2 : ℝ) : ℝ :=
  R * t * (1 / (xAl3T1 * xAl3T1) - (1 / 4) / (xAl3T2 * xAl3T2) + (1 / 4) / (xSi4T2 * xSi4T2))

/-- `D3GDR0R0DT`, melilite.c 1196. -/
def D3GDR0R0DT (xMg2T1 xAl3T1 xAl3T2 xSi4T2 : ℝ) : ℝ :=
  R * (1 / xMg2T1 + 1 / xAl3T1 + (1 / 2) / xAl3T2 + (1 / 2) / xSi4T2)

/-- `D3GDR0R0DP`, melilite.c 1197. -/
def D3GDR0R0DP : ℝ :=
  0

/-- `D3GDR0R1R1`, melilite.c 1199. -/
def D3GDR0R1R1 (t xMg2T1 : ℝ) : ℝ :=
  R * t * (1 / (xMg2T1 * xMg2T1))

/-- `D3GDR0R1R2`, melilite.c 1200. -/
def D3GDR0R1R2 (t xMg2T1 : ℝ) : ℝ :=
  R * t * (1 / (xMg2T1 * xMg2T1))

/-- `D3GDR0R1S0`, melilite.c 1201. -/
def D3GDR0R1S0 : ℝ :=
  0

/-- `D3GDR0R1DT`, melilite.c 1202. -/
def D3GDR0R1DT (xMg2T1 : ℝ) : ℝ :=
  R * (1 / xMg2T1)

/-- `D3GDR0R1DP`, melilite.c 1203. -/
def D3GDR0R1DP : ℝ :=
  0

/-- `D3GDR0R2R2`, melilite.c 1205. -/
def D3GDR0R2R2 (t xMg2T1 : ℝ) : ℝ :=
  R * t * (1 / (xMg2T1 * xMg2T1))

/-- `D3GDR0R2S0`, melilite.c 1206. -/
def D3GDR0R2S0 : ℝ :=
  0

/-- `D3GDR0R2DT`, melilite.c 1207. -/
def D3GDR0R2DT (xMg2T1 : ℝ) : ℝ :=
  R * (1 / xMg2T1)

/-- `D3GDR0R2DP`, melilite.c 1208. -/
def D3GDR0R2DP : ℝ :=
  0

/-- `D3GDR0S0S0`, melilite.c 1210. -/
def D3GDR0S0S0 (t xAl3T1 xAl3T2 xSi4T2 : ℝ) : ℝ :=
  R * t * ((-1) / (xAl3T1 * xAl3T1) - (1 / 4) / (xAl3T2 * xAl3T2) + (1 / 4) / (xSi4T2 * xSi4T2))

/-- `D3GDR0S0DT`, melilite.c 1211. -/
def D3GDR0S0DT (xAl3T1 xAl3T2 xSi4T2 : ℝ) : ℝ :=
  R * ((-1) / xAl3T1 + (1 / 2) / xAl3T2 + (1 / 2) / xSi4T2)

/-- `D3GDR0S0DP`, melilite.c 1212. -/
def D3GDR0S0DP : ℝ :=
  0

/-- `D3GDR0DT2`, melilite.c 1213. -/
def D3GDR0DT2 : ℝ :=
  0

/-- `D3GDR0DTDP`, melilite.c 1214. -/
def D3GDR0DTDP : ℝ :=
  0

/-- `D3GDR0DP2`, melilite.c 1215. -/
def D3GDR0DP2 : ℝ :=
  0

/-- `D3GDR1R1R1`, melilite.c 1217. -/
def D3GDR1R1R1 (t xMg2T1 xFe2T1 : ℝ) : ℝ :=
  R * t * (1 / (xMg2T1 * xMg2T1) - 1 / (xFe2T1 * xFe2T1))

/-- `D3GDR1R1R2`, melilite.c 1218. -/
def D3GDR1R1R2 (t xMg2T1 : ℝ) : ℝ :=
  R * t * (1 / (xMg2T1 * xMg2T1))

/-- `D3GDR1R1S0`, melilite.c 1219. -/
def D3GDR1R1S0 : ℝ :=
  0

/-- `D3GDR1R1DT`, melilite.c 1220. -/
def D3GDR1R1DT (xMg2T1 xFe2T1 : ℝ) : ℝ :=
  R * (1 / xMg2T1 + 1 / xFe2T1)

/-- `D3GDR1R1DP`, melilite.c 1221. -/
def D3GDR1R1DP : ℝ :=
  0

/-- `D3GDR1R2R2`, melilite.c 1223. -/
def D3GDR1R2R2 (t xMg2T1 : ℝ) : ℝ :=
  R * t * (1 / (xMg2T1 * xMg2T1))

/-- `D3GDR1R2S0`, melilite.c 1224. -/
def D3GDR1R2S0 : ℝ :=
  0

/-- `D3GDR1R2DT`, melilite.c 1225. -/
def D3GDR1R2DT (xMg2T1 : ℝ) : ℝ :=
  R * (1 / xMg2T1)

/-- `D3GDR1R2DP`, melilite.c 1226. -/
def D3GDR1R2DP : ℝ :=
  0

/-- `D3GDR1S0S0`, melilite.c 1228. -/
def D3GDR1S0S0 : ℝ :=
  0

/-- `D3GDR1S0DT`, melilite.c 1229. -/
def D3GDR1S0DT : ℝ :=
  0

/-- `D3GDR1S0DP`, melilite.c 1230. -/
def D3GDR1S0DP : ℝ :=
  0

/-- `D3GDR1DT2`, melilite.c 1231. -/
def D3GDR1DT2 : ℝ :=
  0

/-- `D3GDR1DTDP`, melilite.c 1232. -/
def D3GDR1DTDP : ℝ :=
  0

/-- `D3GDR1DP2`, melilite.c 1233. -/
def D3GDR1DP2 : ℝ :=
  0

/-- `D3GDR2R2R2`, melilite.c 1235-1236. -/
def D3GDR2R2R2 (t xCaOct xNaOct xMg2T1 xSi4T1 : ℝ) : ℝ :=
  R * t * (2 / (xCaOct * xCaOct) - 2 / (xNaOct * xNaOct) + 1 / (xMg2T1 * xMg2T1) - 1 / (xSi4T1 * xSi4T1))

/-- `D3GDR2R2S0`, melilite.c 1237. -/
def D3GDR2R2S0 (t xSi4T1 : ℝ) : ℝ :=
  R * t * ((-1) / (xSi4T1 * xSi4T1))

/-- `D3GDR2R2DT`, melilite.c 1238. -/
def D3GDR2R2DT (xCaOct xNaOct xMg2T1 xSi4T1 : ℝ) : ℝ :=
  R * (2 / xCaOct + 2 / xNaOct + 1 / xMg2T1 + 1 / xSi4T1)

/-- `D3GDR2R2DP`, melilite.c 1239. -/
def D3GDR2R2DP : ℝ :=
  0

/-- `D3GDR2S0S0`, melilite.c 1241. -/
def D3GDR2S0S0 (t xSi4T1 : ℝ) : ℝ :=
  R * t * ((-1) / (xSi4T1 * xSi4T1))

/-- `D3GDR2S0DT`, melilite.c 1242. -/
def D3GDR2S0DT (xSi4T1 : ℝ) : ℝ :=
  R * (1 / xSi4T1)

/-- `D3GDR2S0DP`, melilite.c 1243. -/
def D3GDR2S0DP : ℝ :=
  0

/-- `D3GDR2DT2`, melilite.c 1244. -/
def D3GDR2DT2 : ℝ :=
  0

/-- `D3GDR2DTDP`, melilite.c 1245. -/
def D3GDR2DTDP : ℝ :=
  0

/-- `D3GDR2DP2`, melilite.c 1246. -/
def D3GDR2DP2 : ℝ :=
  0

/-- `D3GDS0S0S0`, melilite.c 1248-1249. -/
def D3GDS0S0S0 (t xAl3T1 xSi4T1 xAl3T2 xSi4T2 : ℝ) : ℝ :=
  R * t * (1 / (xAl3T1 * xAl3T1) - 1 / (xSi4T1 * xSi4T1) - (1 / 4) / (xAl3T2 * xAl3T2) + (1 / 4) / (xSi4T2 *
    xSi4T2))

/-- `D3GDS0S0DT`, melilite.c 1250. -/
def D3GDS0S0DT (xAl3T1 xSi4T1 xAl3T2 xSi4T2 : ℝ) : ℝ :=
  R * (1 / xAl3T1 + 1 / xSi4T1 + (1 / 2) / xAl3T2 + (1 / 2) / xSi4T2)

/-- `D3GDS0S0DP`, melilite.c 1251. -/
def D3GDS0S0DP : ℝ :=
  0

/-- `D3GDS0DT2`, melilite.c 1253. -/
def D3GDS0DT2 : ℝ :=
  0

/-- `D3GDS0DTDP`, melilite.c 1254. -/
def D3GDS0DTDP : ℝ :=
  0

/-- `D3GDS0DP2`, melilite.c 1255. -/
def D3GDS0DP2 : ℝ :=
  0

/-- `D3GDT3`, melilite.c 1257. -/
def D3GDT3 : ℝ :=
  0

/-- `D3GDT2DP`, melilite.c 1258. -/
def D3GDT2DP : ℝ :=
  0

/-- `D3GDTDP2`, melilite.c 1259. -/
def D3GDTDP2 : ℝ :=
  0

/-- `D3GDP3`, melilite.c 1260. -/
def D3GDP3 : ℝ :=
  0

/-- The arrays as the functions of melilite.c fill them (lines 1267-1381), for site fractions `x` and variables `y`. -/
def tables (x : Fin 8 → ℝ) (y : Var 3 1 → ℝ) : Tables 3 1 where
g := G (y (.inl iT)) (y (.inl iP)) (y (.inl (.inl 0))) (y (.inl (.inl 1))) (y (.inl (.inl 2))) (y (.inr 0))
    (x 0) (x 1) (x 2) (x 3) (x 4) (x 5) (x 6) (x 7)
s := S (x 0) (x 1) (x 2) (x 3) (x 4) (x 5) (x 6) (x 7)
dgdr := ![DGDR0 (y (.inl iT)) (y (.inl (.inl 0))) (y (.inl (.inl 1))) (y (.inl (.inl 2))) (y (.inr 0)) (x 2)
    (x 4) (x 6) (x 7), DGDR1 (y (.inl iT)) (y (.inl (.inl 0))) (y (.inl (.inl 1))) (y (.inl (.inl 2))) (y (.inr
    0)) (x 2) (x 3), DGDR2 (y (.inl iT)) (y (.inl (.inl 0))) (y (.inl (.inl 1))) (y (.inl (.inl 2))) (y (.inr
    0)) (x 0) (x 1) (x 2) (x 5)]
dgds := ![DGDS0 (y (.inl iT)) (y (.inl (.inl 0))) (y (.inl (.inl 1))) (y (.inl (.inl 2))) (y (.inr 0)) (x 4)
    (x 5) (x 6) (x 7)]
dgdt := DGDT (x 0) (x 1) (x 2) (x 3) (x 4) (x 5) (x 6) (x 7)
dgdp := DGDP
d2gdt2 := D2GDT2
d2gdtdp := D2GDTDP
d2gdp2 := D2GDP2
d3gdt3 := D3GDT3
d3gdt2dp := D3GDT2DP
d3gdtdp2 := D3GDTDP2
d3gdp3 := D3GDP3
d2gdr2 := ![![D2GDR0R0 (y (.inl iT)) (x 2) (x 4) (x 6) (x 7), D2GDR0R1 (y (.inl iT)) (x 2), D2GDR0R2 (y
    (.inl iT)) (x 2)], ![D2GDR0R1 (y (.inl iT)) (x 2), D2GDR1R1 (y (.inl iT)) (x 2) (x 3), D2GDR1R2 (y (.inl
    iT)) (x 2)], ![D2GDR0R2 (y (.inl iT)) (x 2), D2GDR1R2 (y (.inl iT)) (x 2), D2GDR2R2 (y (.inl iT)) (x 0) (x
    1) (x 2) (x 5)]]
d2gdrds := ![![D2GDR0S0 (y (.inl iT)) (x 4) (x 6) (x 7)], ![D2GDR1S0], ![D2GDR2S0 (y (.inl iT)) (x 5)]]
d2gdrdt := ![D2GDR0DT (x 2) (x 4) (x 6) (x 7), D2GDR1DT (x 2) (x 3), D2GDR2DT (x 0) (x 1) (x 2) (x 5)]
d2gdrdp := ![D2GDR0DP, D2GDR1DP, D2GDR2DP]
d2gds2 := ![![D2GDS0S0 (y (.inl iT)) (x 4) (x 5) (x 6) (x 7)]]
d2gdsdt := ![D2GDS0DT (x 4) (x 5) (x 6) (x 7)]
d2gdsdp := ![D2GDS0DP]
d3gdr3 := ![![![D3GDR0R0R0 (y (.inl iT)) (x 2) (x 4) (x 6) (x 7), D3GDR0R0R1 (y (.inl iT)) (x 2), D3GDR0R0R2
    (y (.inl iT)) (x 2)], ![D3GDR0R0R1 (y (.inl iT)) (x 2), D3GDR0R1R1 (y (.inl iT)) (x 2), D3GDR0R1R2 (y (.inl
    iT)) (x 2)], ![D3GDR0R0R2 (y (.inl iT)) (x 2), D3GDR0R1R2 (y (.inl iT)) (x 2), D3GDR0R2R2 (y (.inl iT)) (x
    2)]], ![![D3GDR0R0R1 (y (.inl iT)) (x 2), D3GDR0R1R1 (y (.inl iT)) (x 2), D3GDR0R1R2 (y (.inl iT)) (x 2)],
    ![D3GDR0R1R1 (y (.inl iT)) (x 2), D3GDR1R1R1 (y (.inl iT)) (x 2) (x 3), D3GDR1R1R2 (y (.inl iT)) (x 2)],
    ![D3GDR0R1R2 (y (.inl iT)) (x 2), D3GDR1R1R2 (y (.inl iT)) (x 2), D3GDR1R2R2 (y (.inl iT)) (x 2)]],
    ![![D3GDR0R0R2 (y (.inl iT)) (x 2), D3GDR0R1R2 (y (.inl iT)) (x 2), D3GDR0R2R2 (y (.inl iT)) (x 2)],
    ![D3GDR0R1R2 (y (.inl iT)) (x 2), D3GDR1R1R2 (y (.inl iT)) (x 2), D3GDR1R2R2 (y (.inl iT)) (x 2)],
    ![D3GDR0R2R2 (y (.inl iT)) (x 2), D3GDR1R2R2 (y (.inl iT)) (x 2), D3GDR2R2R2 (y (.inl iT)) (x 0) (x 1) (x 2)
    (x 5)]]]
d3gdr2ds := ![![![D3GDR0R0S0 (y (.inl iT)) (x 4) (x 6) (x 7)], ![D3GDR0R1S0], ![D3GDR0R2S0]],
    ![![D3GDR0R1S0], ![D3GDR1R1S0], ![D3GDR1R2S0]], ![![D3GDR0R2S0], ![D3GDR1R2S0], ![D3GDR2R2S0 (y (.inl iT))
    (x 5)]]]
d3gdr2dt := ![![D3GDR0R0DT (x 2) (x 4) (x 6) (x 7), D3GDR0R1DT (x 2), D3GDR0R2DT (x 2)], ![D3GDR0R1DT (x 2),
    D3GDR1R1DT (x 2) (x 3), D3GDR1R2DT (x 2)], ![D3GDR0R2DT (x 2), D3GDR1R2DT (x 2), D3GDR2R2DT (x 0) (x 1) (x
    2) (x 5)]]
d3gdr2dp := ![![D3GDR0R0DP, D3GDR0R1DP, D3GDR0R2DP], ![D3GDR0R1DP, D3GDR1R1DP, D3GDR1R2DP], ![D3GDR0R2DP,
    D3GDR1R2DP, D3GDR2R2DP]]
d3gdrds2 := ![![![D3GDR0S0S0 (y (.inl iT)) (x 4) (x 6) (x 7)]], ![![D3GDR1S0S0]], ![![D3GDR2S0S0 (y (.inl
    iT)) (x 5)]]]
d3gdrdsdt := ![![D3GDR0S0DT (x 4) (x 6) (x 7)], ![D3GDR1S0DT], ![D3GDR2S0DT (x 5)]]
d3gdrdsdp := ![![D3GDR0S0DP], ![D3GDR1S0DP], ![D3GDR2S0DP]]
d3gdrdt2 := ![D3GDR0DT2, D3GDR1DT2, D3GDR2DT2]
d3gdrdtdp := ![D3GDR0DTDP, D3GDR1DTDP, D3GDR2DTDP]
d3gdrdp2 := ![D3GDR0DP2, D3GDR1DP2, D3GDR2DP2]
d3gds3 := ![![![D3GDS0S0S0 (y (.inl iT)) (x 4) (x 5) (x 6) (x 7)]]]
d3gds2dt := ![![D3GDS0S0DT (x 4) (x 5) (x 6) (x 7)]]
d3gds2dp := ![![D3GDS0S0DP]]
d3gdsdt2 := ![D3GDS0DT2]
d3gdsdtdp := ![D3GDS0DTDP]
d3gdsdp2 := ![D3GDS0DP2]

/-- Site fractions before they are kept inside their bounds, melilite.c 1428-1453. -/
def raw (y : Var 3 1 → ℝ) : Fin 8 → ℝ :=
  ![1 - (y (.inl (.inl 2))), (y (.inl (.inl 2))), 1 - (y (.inl (.inl 0))) - (y (.inl (.inl 1))) - (y (.inl
    (.inl 2))), (y (.inl (.inl 1))), (y (.inl (.inl 0))) - (y (.inr 0)), (y (.inl (.inl 2))) + (y (.inr 0)), ((y
    (.inl (.inl 0))) + (y (.inr 0))) / 2, 1 - ((y (.inl (.inl 0))) + (y (.inr 0))) / 2]

/-- Bounds applied to the site fractions, melilite.c 1428-1453. -/
def site (y : Var 3 1 → ℝ) : Fin 8 → ℝ :=
  ![keep 0 1 (1 - dblEps) (raw y 0), keep 0 1 (1 - dblEps) (raw y 1), keep 0 1 (1 - dblEps) (raw y 2), keep 0
    1 (1 - dblEps) (raw y 3), keep 0 1 (1 - dblEps) (raw y 4), keep 0 1 (1 - dblEps) (raw y 5), keep 0 1 (1 -
    dblEps) (raw y 6), keep 0 1 (1 - dblEps) (raw y 7)]

/-- The macros of melilite.c at given composition, conditions and ordering state. -/
def macros (y : Var 3 1 → ℝ) : Tables 3 1 := tables (site y) y

/-- Where no bound on the site fractions is active. -/
def Dom (y : Var 3 1 → ℝ) : Prop :=
  (0 < raw y 0 ∧ raw y 0 < 1) ∧ (0 < raw y 1 ∧ raw y 1 < 1) ∧ (0 < raw y 2 ∧ raw y 2 < 1) ∧ (0 < raw y 3 ∧ raw
    y 3 < 1) ∧ (0 < raw y 4 ∧ raw y 4 < 1) ∧ (0 < raw y 5 ∧ raw y 5 < 1) ∧ (0 < raw y 6 ∧ raw y 6 < 1) ∧ (0 <
    raw y 7 ∧ raw y 7 < 1)

lemma hl (y u : Var 3 1 → ℝ) (i : Var 3 1) : HasDerivAt (fun v : ℝ => y i + v * u i) (u i) 0 := by
  simpa using ((hasDerivAt_id' (0 : ℝ)).mul_const (u i)).const_add (y i)

lemma raw_line0 (y u : Var 3 1 → ℝ) : HasDerivAt (fun v : ℝ => raw (fun i => y i + v * u i) 0)
    ((-1) * u (.inl (.inl 2))) 0 := by
  have hr0 := hl y u ((.inl (.inl 0)))
  have hr1 := hl y u ((.inl (.inl 1)))
  have hr2 := hl y u ((.inl (.inl 2)))
  have hs0 := hl y u ((.inr 0))
  change HasDerivAt (fun v : ℝ => 1 - (y (.inl (.inl 2)) + v * u (.inl (.inl 2)))) _ 0
  refine HasDerivAt.congr_deriv (by hdo) ?_
  ring

lemma raw_line1 (y u : Var 3 1 → ℝ) : HasDerivAt (fun v : ℝ => raw (fun i => y i + v * u i) 1)
    (1 * u (.inl (.inl 2))) 0 := by
  have hr0 := hl y u ((.inl (.inl 0)))
  have hr1 := hl y u ((.inl (.inl 1)))
  have hr2 := hl y u ((.inl (.inl 2)))
  have hs0 := hl y u ((.inr 0))
  change HasDerivAt (fun v : ℝ => (y (.inl (.inl 2)) + v * u (.inl (.inl 2)))) _ 0
  refine HasDerivAt.congr_deriv (by hdo) ?_
  ring

lemma raw_line2 (y u : Var 3 1 → ℝ) : HasDerivAt (fun v : ℝ => raw (fun i => y i + v * u i) 2)
    ((-1) * u (.inl (.inl 0)) + (-1) * u (.inl (.inl 1)) + (-1) * u (.inl (.inl 2))) 0 := by
  have hr0 := hl y u ((.inl (.inl 0)))
  have hr1 := hl y u ((.inl (.inl 1)))
  have hr2 := hl y u ((.inl (.inl 2)))
  have hs0 := hl y u ((.inr 0))
  change HasDerivAt (fun v : ℝ => 1 - (y (.inl (.inl 0)) + v * u (.inl (.inl 0))) - (y (.inl (.inl 1)) + v * u (.inl (.inl 1))) - (y (.inl
    (.inl 2)) + v * u (.inl (.inl 2)))) _ 0
  refine HasDerivAt.congr_deriv (by hdo) ?_
  ring

lemma raw_line3 (y u : Var 3 1 → ℝ) : HasDerivAt (fun v : ℝ => raw (fun i => y i + v * u i) 3)
    (1 * u (.inl (.inl 1))) 0 := by
  have hr0 := hl y u ((.inl (.inl 0)))
  have hr1 := hl y u ((.inl (.inl 1)))
  have hr2 := hl y u ((.inl (.inl 2)))
  have hs0 := hl y u ((.inr 0))
  change HasDerivAt (fun v : ℝ => (y (.inl (.inl 1)) + v * u (.inl (.inl 1)))) _ 0
  refine HasDerivAt.congr_deriv (by hdo) ?_
  ring

lemma raw_line4 (y u : Var 3 1 → ℝ) : HasDerivAt (fun v : ℝ => raw (fun i => y i + v * u i) 4)
    (1 * u (.inl (.inl 0)) + (-1) * u (.inr 0)) 0 := by
  have hr0 := hl y u ((.inl (.inl 0)))
  have hr1 := hl y u ((.inl (.inl 1)))
  have hr2 := hl y u ((.inl (.inl 2)))
  have hs0 := hl y u ((.inr 0))
  change HasDerivAt (fun v : ℝ => (y (.inl (.inl 0)) + v * u (.inl (.inl 0))) - (y (.inr 0) + v * u (.inr 0))) _ 0
  refine HasDerivAt.congr_deriv (by hdo) ?_
  ring

lemma raw_line5 (y u : Var 3 1 → ℝ) : HasDerivAt (fun v : ℝ => raw (fun i => y i + v * u i) 5)
    (1 * u (.inl (.inl 2)) + 1 * u (.inr 0)) 0 := by
  have hr0 := hl y u ((.inl (.inl 0)))
  have hr1 := hl y u ((.inl (.inl 1)))
  have hr2 := hl y u ((.inl (.inl 2)))
  have hs0 := hl y u ((.inr 0))
  change HasDerivAt (fun v : ℝ => (y (.inl (.inl 2)) + v * u (.inl (.inl 2))) + (y (.inr 0) + v * u (.inr 0))) _ 0
  refine HasDerivAt.congr_deriv (by hdo) ?_
  ring

lemma raw_line6 (y u : Var 3 1 → ℝ) : HasDerivAt (fun v : ℝ => raw (fun i => y i + v * u i) 6)
    ((1 / 2) * u (.inl (.inl 0)) + (1 / 2) * u (.inr 0)) 0 := by
  have hr0 := hl y u ((.inl (.inl 0)))
  have hr1 := hl y u ((.inl (.inl 1)))
  have hr2 := hl y u ((.inl (.inl 2)))
  have hs0 := hl y u ((.inr 0))
  change HasDerivAt (fun v : ℝ => ((y (.inl (.inl 0)) + v * u (.inl (.inl 0))) + (y (.inr 0) + v * u (.inr 0))) / 2) _ 0
  refine HasDerivAt.congr_deriv (by hdo) ?_
  ring

lemma raw_line7 (y u : Var 3 1 → ℝ) : HasDerivAt (fun v : ℝ => raw (fun i => y i + v * u i) 7)
    ((-(1) / 2) * u (.inl (.inl 0)) + (-(1) / 2) * u (.inr 0)) 0 := by
  have hr0 := hl y u ((.inl (.inl 0)))
  have hr1 := hl y u ((.inl (.inl 1)))
  have hr2 := hl y u ((.inl (.inl 2)))
  have hs0 := hl y u ((.inr 0))
  change HasDerivAt (fun v : ℝ => 1 - ((y (.inl (.inl 0)) + v * u (.inl (.inl 0))) + (y (.inr 0) + v * u (.inr 0))) / 2) _ 0
  refine HasDerivAt.congr_deriv (by hdo) ?_
  ring

lemma raw_diff (k : Fin 8) (y : Var 3 1 → ℝ) : DifferentiableAt ℝ (fun y => raw y k) y := by
  fin_cases k
  · change DifferentiableAt ℝ (fun y : Var 3 1 → ℝ => 1 - (y (.inl (.inl 2)))) y; ddo
  · change DifferentiableAt ℝ (fun y : Var 3 1 → ℝ => (y (.inl (.inl 2)))) y; ddo
  · change DifferentiableAt ℝ (fun y : Var 3 1 → ℝ => 1 - (y (.inl (.inl 0))) - (y (.inl (.inl 1))) - (y (.inl (.inl 2)))) y; ddo
  · change DifferentiableAt ℝ (fun y : Var 3 1 → ℝ => (y (.inl (.inl 1)))) y; ddo
  · change DifferentiableAt ℝ (fun y : Var 3 1 → ℝ => (y (.inl (.inl 0))) - (y (.inr 0))) y; ddo
  · change DifferentiableAt ℝ (fun y : Var 3 1 → ℝ => (y (.inl (.inl 2))) + (y (.inr 0))) y; ddo
  · change DifferentiableAt ℝ (fun y : Var 3 1 → ℝ => ((y (.inl (.inl 0))) + (y (.inr 0))) / 2) y; ddo
  · change DifferentiableAt ℝ (fun y : Var 3 1 → ℝ => 1 - ((y (.inl (.inl 0))) + (y (.inr 0))) / 2) y; ddo

lemma pos (y : Var 3 1 → ℝ) (hy : Dom y) :
    0 < raw y 0 ∧ 0 < raw y 1 ∧ 0 < raw y 2 ∧ 0 < raw y 3 ∧ 0 < raw y 4 ∧ 0 < raw y 5 ∧ 0 < raw y 6 ∧ 0 < raw y
    7 := by
  have he := dblEps_pos
  obtain ⟨h0, h1, h2, h3, h4, h5, h6, h7⟩ := hy
  refine ⟨?_, ?_, ?_, ?_, ?_, ?_, ?_, ?_⟩ <;> first | linarith | assumption

lemma c_G {t p r0 r1 r2 s0 xCaOct xNaOct xMg2T1 xFe2T1 xAl3T1 xSi4T1 xAl3T2 xSi4T2 : ℝ → ℝ} {v dt dp dr0 dr1 dr2 ds0 :
    ℝ} (ht : HasDerivAt t dt v) (hp : HasDerivAt p dp v) (hr0 : HasDerivAt r0 dr0 v) (hr1 : HasDerivAt r1 dr1 v)
    (hr2 : HasDerivAt r2 dr2 v) (hs0 : HasDerivAt s0 ds0 v) (hxCaOct : HasDerivAt xCaOct ((-1) * dr2) v)
    (pxCaOct : 0 < xCaOct v) (hxNaOct : HasDerivAt xNaOct (1 * dr2) v) (pxNaOct : 0 < xNaOct v) (hxMg2T1 :
    HasDerivAt xMg2T1 ((-1) * dr0 + (-1) * dr1 + (-1) * dr2) v) (pxMg2T1 : 0 < xMg2T1 v) (hxFe2T1 : HasDerivAt
    xFe2T1 (1 * dr1) v) (pxFe2T1 : 0 < xFe2T1 v) (hxAl3T1 : HasDerivAt xAl3T1 (1 * dr0 + (-1) * ds0) v) (pxAl3T1
    : 0 < xAl3T1 v) (hxSi4T1 : HasDerivAt xSi4T1 (1 * dr2 + 1 * ds0) v) (pxSi4T1 : 0 < xSi4T1 v) (hxAl3T2 :
    HasDerivAt xAl3T2 ((1 / 2) * dr0 + (1 / 2) * ds0) v) (pxAl3T2 : 0 < xAl3T2 v) (hxSi4T2 : HasDerivAt xSi4T2
    ((-(1) / 2) * dr0 + (-(1) / 2) * ds0) v) (pxSi4T2 : 0 < xSi4T2 v) :
    HasDerivAt (fun v => G (t v) (p v) (r0 v) (r1 v) (r2 v) (s0 v) (xCaOct v) (xNaOct v) (xMg2T1 v) (xFe2T1 v) (xAl3T1 v) (xSi4T1 v) (xAl3T2 v) (xSi4T2 v))
    (((DGDR0 (t v) (r0 v) (r1 v) (r2 v) (s0 v) (xMg2T1 v) (xAl3T1 v) (xAl3T2 v) (xSi4T2 v)) * dr0 + (DGDR1 (t v)
    (r0 v) (r1 v) (r2 v) (s0 v) (xMg2T1 v) (xFe2T1 v)) * dr1 + (DGDR2 (t v) (r0 v) (r1 v) (r2 v) (s0 v) (xCaOct
    v) (xNaOct v) (xMg2T1 v) (xSi4T1 v)) * dr2) + ((DGDT (xCaOct v) (xNaOct v) (xMg2T1 v) (xFe2T1 v) (xAl3T1 v)
    (xSi4T1 v) (xAl3T2 v) (xSi4T2 v)) * dt + DGDP * dp) + ((DGDS0 (t v) (r0 v) (r1 v) (r2 v) (s0 v) (xAl3T1 v)
    (xSi4T1 v) (xAl3T2 v) (xSi4T2 v)) * ds0)) v := by
  have nxCaOct := pxCaOct.ne'
  have nxNaOct := pxNaOct.ne'
  have nxMg2T1 := pxMg2T1.ne'
  have nxFe2T1 := pxFe2T1.ne'
  have nxAl3T1 := pxAl3T1.ne'
  have nxSi4T1 := pxSi4T1.ne'
  have nxAl3T2 := pxAl3T2.ne'
  have nxSi4T2 := pxSi4T2.ne'
  try simp only [W14, W34, H, S, V, G, DGDT, DGDP, DGDR0, DGDR1, DGDR2, DGDS0, zero_mul, mul_zero, add_zero, zero_add, sub_zero]
  refine HasDerivAt.congr_deriv (by hdq) ?_
  ring

lemma c_DGDR0 {t p r0 r1 r2 s0 xMg2T1 xAl3T1 xAl3T2 xSi4T2 : ℝ → ℝ} {v dt dp dr0 dr1 dr2 ds0 : ℝ} (ht : HasDerivAt t dt v)
    (hp : HasDerivAt p dp v) (hr0 : HasDerivAt r0 dr0 v) (hr1 : HasDerivAt r1 dr1 v) (hr2 : HasDerivAt r2 dr2 v)
    (hs0 : HasDerivAt s0 ds0 v) (hxMg2T1 : HasDerivAt xMg2T1 ((-1) * dr0 + (-1) * dr1 + (-1) * dr2) v) (pxMg2T1
    : 0 < xMg2T1 v) (hxAl3T1 : HasDerivAt xAl3T1 (1 * dr0 + (-1) * ds0) v) (pxAl3T1 : 0 < xAl3T1 v) (hxAl3T2 :
    HasDerivAt xAl3T2 ((1 / 2) * dr0 + (1 / 2) * ds0) v) (pxAl3T2 : 0 < xAl3T2 v) (hxSi4T2 : HasDerivAt xSi4T2
    ((-(1) / 2) * dr0 + (-(1) / 2) * ds0) v) (pxSi4T2 : 0 < xSi4T2 v) :
    HasDerivAt (fun v => DGDR0 (t v) (r0 v) (r1 v) (r2 v) (s0 v) (xMg2T1 v) (xAl3T1 v) (xAl3T2 v) (xSi4T2 v))
    (((D2GDR0R0 (t v) (xMg2T1 v) (xAl3T1 v) (xAl3T2 v) (xSi4T2 v)) * dr0 + (D2GDR0R1 (t v) (xMg2T1 v)) * dr1 +
    (D2GDR0R2 (t v) (xMg2T1 v)) * dr2) + ((D2GDR0DT (xMg2T1 v) (xAl3T1 v) (xAl3T2 v) (xSi4T2 v)) * dt + D2GDR0DP
    * dp) + ((D2GDR0S0 (t v) (xAl3T1 v) (xAl3T2 v) (xSi4T2 v)) * ds0)) v := by
  have nxMg2T1 := pxMg2T1.ne'
  have nxAl3T1 := pxAl3T1.ne'
  have nxAl3T2 := pxAl3T2.ne'
  have nxSi4T2 := pxSi4T2.ne'
  try simp only [W14, DGDR0, D2GDR0DT, D2GDR0DP, D2GDR0R0, D2GDR0R1, D2GDR0R2, D2GDR0S0, zero_mul, mul_zero, add_zero, zero_add, sub_zero]
  refine HasDerivAt.congr_deriv (by hdq) ?_
  ring

lemma c_DGDR1 {t p r0 r1 r2 s0 xMg2T1 xFe2T1 : ℝ → ℝ} {v dt dp dr0 dr1 dr2 ds0 : ℝ} (ht : HasDerivAt t dt v) (hp :
    HasDerivAt p dp v) (hr0 : HasDerivAt r0 dr0 v) (hr1 : HasDerivAt r1 dr1 v) (hr2 : HasDerivAt r2 dr2 v) (hs0
    : HasDerivAt s0 ds0 v) (hxMg2T1 : HasDerivAt xMg2T1 ((-1) * dr0 + (-1) * dr1 + (-1) * dr2) v) (pxMg2T1 : 0 <
    xMg2T1 v) (hxFe2T1 : HasDerivAt xFe2T1 (1 * dr1) v) (pxFe2T1 : 0 < xFe2T1 v) :
    HasDerivAt (fun v => DGDR1 (t v) (r0 v) (r1 v) (r2 v) (s0 v) (xMg2T1 v) (xFe2T1 v))
    (((D2GDR0R1 (t v) (xMg2T1 v)) * dr0 + (D2GDR1R1 (t v) (xMg2T1 v) (xFe2T1 v)) * dr1 + (D2GDR1R2 (t v) (xMg2T1
    v)) * dr2) + ((D2GDR1DT (xMg2T1 v) (xFe2T1 v)) * dt + D2GDR1DP * dp) + (D2GDR1S0 * ds0)) v := by
  have nxMg2T1 := pxMg2T1.ne'
  have nxFe2T1 := pxFe2T1.ne'
  try simp only [W34, W14, DGDR1, D2GDR1DT, D2GDR1DP, D2GDR0R1, D2GDR1R1, D2GDR1R2, D2GDR1S0, zero_mul, mul_zero, add_zero, zero_add, sub_zero]
  refine HasDerivAt.congr_deriv (by hdq) ?_
  ring

lemma c_DGDR2 {t p r0 r1 r2 s0 xCaOct xNaOct xMg2T1 xSi4T1 : ℝ → ℝ} {v dt dp dr0 dr1 dr2 ds0 : ℝ} (ht : HasDerivAt t dt v)
    (hp : HasDerivAt p dp v) (hr0 : HasDerivAt r0 dr0 v) (hr1 : HasDerivAt r1 dr1 v) (hr2 : HasDerivAt r2 dr2 v)
    (hs0 : HasDerivAt s0 ds0 v) (hxCaOct : HasDerivAt xCaOct ((-1) * dr2) v) (pxCaOct : 0 < xCaOct v) (hxNaOct :
    HasDerivAt xNaOct (1 * dr2) v) (pxNaOct : 0 < xNaOct v) (hxMg2T1 : HasDerivAt xMg2T1 ((-1) * dr0 + (-1) *
    dr1 + (-1) * dr2) v) (pxMg2T1 : 0 < xMg2T1 v) (hxSi4T1 : HasDerivAt xSi4T1 (1 * dr2 + 1 * ds0) v) (pxSi4T1 :
    0 < xSi4T1 v) :
    HasDerivAt (fun v => DGDR2 (t v) (r0 v) (r1 v) (r2 v) (s0 v) (xCaOct v) (xNaOct v) (xMg2T1 v) (xSi4T1 v))
    (((D2GDR0R2 (t v) (xMg2T1 v)) * dr0 + (D2GDR1R2 (t v) (xMg2T1 v)) * dr1 + (D2GDR2R2 (t v) (xCaOct v) (xNaOct
    v) (xMg2T1 v) (xSi4T1 v)) * dr2) + ((D2GDR2DT (xCaOct v) (xNaOct v) (xMg2T1 v) (xSi4T1 v)) * dt + D2GDR2DP *
    dp) + ((D2GDR2S0 (t v) (xSi4T1 v)) * ds0)) v := by
  have nxCaOct := pxCaOct.ne'
  have nxNaOct := pxNaOct.ne'
  have nxMg2T1 := pxMg2T1.ne'
  have nxSi4T1 := pxSi4T1.ne'
  try simp only [W14, W34, DGDR2, D2GDR2DT, D2GDR2DP, D2GDR0R2, D2GDR1R2, D2GDR2R2, D2GDR2S0, zero_mul, mul_zero, add_zero, zero_add, sub_zero]
  refine HasDerivAt.congr_deriv (by hdq) ?_
  ring

lemma c_DGDS0 {t p r0 r1 r2 s0 xAl3T1 xSi4T1 xAl3T2 xSi4T2 : ℝ → ℝ} {v dt dp dr0 dr1 dr2 ds0 : ℝ} (ht : HasDerivAt t dt v)
    (hp : HasDerivAt p dp v) (hr0 : HasDerivAt r0 dr0 v) (hr1 : HasDerivAt r1 dr1 v) (hr2 : HasDerivAt r2 dr2 v)
    (hs0 : HasDerivAt s0 ds0 v) (hxAl3T1 : HasDerivAt xAl3T1 (1 * dr0 + (-1) * ds0) v) (pxAl3T1 : 0 < xAl3T1 v)
    (hxSi4T1 : HasDerivAt xSi4T1 (1 * dr2 + 1 * ds0) v) (pxSi4T1 : 0 < xSi4T1 v) (hxAl3T2 : HasDerivAt xAl3T2
    ((1 / 2) * dr0 + (1 / 2) * ds0) v) (pxAl3T2 : 0 < xAl3T2 v) (hxSi4T2 : HasDerivAt xSi4T2 ((-(1) / 2) * dr0 +
    (-(1) / 2) * ds0) v) (pxSi4T2 : 0 < xSi4T2 v) :
    HasDerivAt (fun v => DGDS0 (t v) (r0 v) (r1 v) (r2 v) (s0 v) (xAl3T1 v) (xSi4T1 v) (xAl3T2 v) (xSi4T2 v))
    (((D2GDR0S0 (t v) (xAl3T1 v) (xAl3T2 v) (xSi4T2 v)) * dr0 + D2GDR1S0 * dr1 + (D2GDR2S0 (t v) (xSi4T1 v)) *
    dr2) + ((D2GDS0DT (xAl3T1 v) (xSi4T1 v) (xAl3T2 v) (xSi4T2 v)) * dt + D2GDS0DP * dp) + ((D2GDS0S0 (t v)
    (xAl3T1 v) (xSi4T1 v) (xAl3T2 v) (xSi4T2 v)) * ds0)) v := by
  have nxAl3T1 := pxAl3T1.ne'
  have nxSi4T1 := pxSi4T1.ne'
  have nxAl3T2 := pxAl3T2.ne'
  have nxSi4T2 := pxSi4T2.ne'
  try simp only [DGDS0, D2GDS0DT, D2GDS0DP, D2GDR0S0, D2GDR1S0, D2GDR2S0, D2GDS0S0, zero_mul, mul_zero, add_zero, zero_add, sub_zero]
  refine HasDerivAt.congr_deriv (by hdq) ?_
  ring

lemma c_DGDT {t p r0 r1 r2 s0 xCaOct xNaOct xMg2T1 xFe2T1 xAl3T1 xSi4T1 xAl3T2 xSi4T2 : ℝ → ℝ} {v dt dp dr0 dr1 dr2 ds0 :
    ℝ} (ht : HasDerivAt t dt v) (hp : HasDerivAt p dp v) (hr0 : HasDerivAt r0 dr0 v) (hr1 : HasDerivAt r1 dr1 v)
    (hr2 : HasDerivAt r2 dr2 v) (hs0 : HasDerivAt s0 ds0 v) (hxCaOct : HasDerivAt xCaOct ((-1) * dr2) v)
    (pxCaOct : 0 < xCaOct v) (hxNaOct : HasDerivAt xNaOct (1 * dr2) v) (pxNaOct : 0 < xNaOct v) (hxMg2T1 :
    HasDerivAt xMg2T1 ((-1) * dr0 + (-1) * dr1 + (-1) * dr2) v) (pxMg2T1 : 0 < xMg2T1 v) (hxFe2T1 : HasDerivAt
    xFe2T1 (1 * dr1) v) (pxFe2T1 : 0 < xFe2T1 v) (hxAl3T1 : HasDerivAt xAl3T1 (1 * dr0 + (-1) * ds0) v) (pxAl3T1
    : 0 < xAl3T1 v) (hxSi4T1 : HasDerivAt xSi4T1 (1 * dr2 + 1 * ds0) v) (pxSi4T1 : 0 < xSi4T1 v) (hxAl3T2 :
    HasDerivAt xAl3T2 ((1 / 2) * dr0 + (1 / 2) * ds0) v) (pxAl3T2 : 0 < xAl3T2 v) (hxSi4T2 : HasDerivAt xSi4T2
    ((-(1) / 2) * dr0 + (-(1) / 2) * ds0) v) (pxSi4T2 : 0 < xSi4T2 v) :
    HasDerivAt (fun v => DGDT (xCaOct v) (xNaOct v) (xMg2T1 v) (xFe2T1 v) (xAl3T1 v) (xSi4T1 v) (xAl3T2 v) (xSi4T2 v))
    (((D2GDR0DT (xMg2T1 v) (xAl3T1 v) (xAl3T2 v) (xSi4T2 v)) * dr0 + (D2GDR1DT (xMg2T1 v) (xFe2T1 v)) * dr1 +
    (D2GDR2DT (xCaOct v) (xNaOct v) (xMg2T1 v) (xSi4T1 v)) * dr2) + (D2GDT2 * dt + D2GDTDP * dp) + ((D2GDS0DT
    (xAl3T1 v) (xSi4T1 v) (xAl3T2 v) (xSi4T2 v)) * ds0)) v := by
  have nxCaOct := pxCaOct.ne'
  have nxNaOct := pxNaOct.ne'
  have nxMg2T1 := pxMg2T1.ne'
  have nxFe2T1 := pxFe2T1.ne'
  have nxAl3T1 := pxAl3T1.ne'
  have nxSi4T1 := pxSi4T1.ne'
  have nxAl3T2 := pxAl3T2.ne'
  have nxSi4T2 := pxSi4T2.ne'
  try simp only [S, DGDT, D2GDT2, D2GDTDP, D2GDR0DT, D2GDR1DT, D2GDR2DT, D2GDS0DT, zero_mul, mul_zero, add_zero, zero_add, sub_zero]
  refine HasDerivAt.congr_deriv (by hdq) ?_
  ring

lemma c_DGDP {t p r0 r1 r2 s0 : ℝ → ℝ} {v dt dp dr0 dr1 dr2 ds0 : ℝ} (ht : HasDerivAt t dt v) (hp : HasDerivAt p dp v)
    (hr0 : HasDerivAt r0 dr0 v) (hr1 : HasDerivAt r1 dr1 v) (hr2 : HasDerivAt r2 dr2 v) (hs0 : HasDerivAt s0 ds0
    v) :
    HasDerivAt (fun v => DGDP)
    ((D2GDR0DP * dr0 + D2GDR1DP * dr1 + D2GDR2DP * dr2) + (D2GDTDP * dt + D2GDP2 * dp) + (D2GDS0DP * ds0)) v := by
  try simp only [V, DGDP, D2GDTDP, D2GDP2, D2GDR0DP, D2GDR1DP, D2GDR2DP, D2GDS0DP, zero_mul, mul_zero, add_zero, zero_add, sub_zero]
  refine HasDerivAt.congr_deriv (by hdq) ?_
  ring

lemma c_D2GDR0R0 {t p r0 r1 r2 s0 xMg2T1 xAl3T1 xAl3T2 xSi4T2 : ℝ → ℝ} {v dt dp dr0 dr1 dr2 ds0 : ℝ} (ht : HasDerivAt t dt v)
    (hp : HasDerivAt p dp v) (hr0 : HasDerivAt r0 dr0 v) (hr1 : HasDerivAt r1 dr1 v) (hr2 : HasDerivAt r2 dr2 v)
    (hs0 : HasDerivAt s0 ds0 v) (hxMg2T1 : HasDerivAt xMg2T1 ((-1) * dr0 + (-1) * dr1 + (-1) * dr2) v) (pxMg2T1
    : 0 < xMg2T1 v) (hxAl3T1 : HasDerivAt xAl3T1 (1 * dr0 + (-1) * ds0) v) (pxAl3T1 : 0 < xAl3T1 v) (hxAl3T2 :
    HasDerivAt xAl3T2 ((1 / 2) * dr0 + (1 / 2) * ds0) v) (pxAl3T2 : 0 < xAl3T2 v) (hxSi4T2 : HasDerivAt xSi4T2
    ((-(1) / 2) * dr0 + (-(1) / 2) * ds0) v) (pxSi4T2 : 0 < xSi4T2 v) :
    HasDerivAt (fun v => D2GDR0R0 (t v) (xMg2T1 v) (xAl3T1 v) (xAl3T2 v) (xSi4T2 v))
    (((D3GDR0R0R0 (t v) (xMg2T1 v) (xAl3T1 v) (xAl3T2 v) (xSi4T2 v)) * dr0 + (D3GDR0R0R1 (t v) (xMg2T1 v)) * dr1
    + (D3GDR0R0R2 (t v) (xMg2T1 v)) * dr2) + ((D3GDR0R0DT (xMg2T1 v) (xAl3T1 v) (xAl3T2 v) (xSi4T2 v)) * dt +
    D3GDR0R0DP * dp) + ((D3GDR0R0S0 (t v) (xAl3T1 v) (xAl3T2 v) (xSi4T2 v)) * ds0)) v := by
  have nxMg2T1 := pxMg2T1.ne'
  have nxAl3T1 := pxAl3T1.ne'
  have nxAl3T2 := pxAl3T2.ne'
  have nxSi4T2 := pxSi4T2.ne'
  try simp only [D2GDR0R0, D3GDR0R0DT, D3GDR0R0DP, D3GDR0R0R0, D3GDR0R0R1, D3GDR0R0R2, D3GDR0R0S0, zero_mul, mul_zero, add_zero, zero_add, sub_zero]
  refine HasDerivAt.congr_deriv (by hdq) ?_
  ring

lemma c_D2GDR0R1 {t p r0 r1 r2 s0 xMg2T1 : ℝ → ℝ} {v dt dp dr0 dr1 dr2 ds0 : ℝ} (ht : HasDerivAt t dt v) (hp : HasDerivAt p
    dp v) (hr0 : HasDerivAt r0 dr0 v) (hr1 : HasDerivAt r1 dr1 v) (hr2 : HasDerivAt r2 dr2 v) (hs0 : HasDerivAt
    s0 ds0 v) (hxMg2T1 : HasDerivAt xMg2T1 ((-1) * dr0 + (-1) * dr1 + (-1) * dr2) v) (pxMg2T1 : 0 < xMg2T1 v) :
    HasDerivAt (fun v => D2GDR0R1 (t v) (xMg2T1 v))
    (((D3GDR0R0R1 (t v) (xMg2T1 v)) * dr0 + (D3GDR0R1R1 (t v) (xMg2T1 v)) * dr1 + (D3GDR0R1R2 (t v) (xMg2T1 v)) *
    dr2) + ((D3GDR0R1DT (xMg2T1 v)) * dt + D3GDR0R1DP * dp) + (D3GDR0R1S0 * ds0)) v := by
  have nxMg2T1 := pxMg2T1.ne'
  try simp only [D2GDR0R1, D3GDR0R1DT, D3GDR0R1DP, D3GDR0R0R1, D3GDR0R1R1, D3GDR0R1R2, D3GDR0R1S0, zero_mul, mul_zero, add_zero, zero_add, sub_zero]
  refine HasDerivAt.congr_deriv (by hdq) ?_
  ring

lemma c_D2GDR0R2 {t p r0 r1 r2 s0 xMg2T1 : ℝ → ℝ} {v dt dp dr0 dr1 dr2 ds0 : ℝ} (ht : HasDerivAt t dt v) (hp : HasDerivAt p
    dp v) (hr0 : HasDerivAt r0 dr0 v) (hr1 : HasDerivAt r1 dr1 v) (hr2 : HasDerivAt r2 dr2 v) (hs0 : HasDerivAt
    s0 ds0 v) (hxMg2T1 : HasDerivAt xMg2T1 ((-1) * dr0 + (-1) * dr1 + (-1) * dr2) v) (pxMg2T1 : 0 < xMg2T1 v) :
    HasDerivAt (fun v => D2GDR0R2 (t v) (xMg2T1 v))
    (((D3GDR0R0R2 (t v) (xMg2T1 v)) * dr0 + (D3GDR0R1R2 (t v) (xMg2T1 v)) * dr1 + (D3GDR0R2R2 (t v) (xMg2T1 v)) *
    dr2) + ((D3GDR0R2DT (xMg2T1 v)) * dt + D3GDR0R2DP * dp) + (D3GDR0R2S0 * ds0)) v := by
  have nxMg2T1 := pxMg2T1.ne'
  try simp only [W14, D2GDR0R2, D3GDR0R2DT, D3GDR0R2DP, D3GDR0R0R2, D3GDR0R1R2, D3GDR0R2R2, D3GDR0R2S0, zero_mul, mul_zero, add_zero, zero_add, sub_zero]
  refine HasDerivAt.congr_deriv (by hdq) ?_
  ring

lemma c_D2GDR0S0 {t p r0 r1 r2 s0 xAl3T1 xAl3T2 xSi4T2 : ℝ → ℝ} {v dt dp dr0 dr1 dr2 ds0 : ℝ} (ht : HasDerivAt t dt v) (hp :
    HasDerivAt p dp v) (hr0 : HasDerivAt r0 dr0 v) (hr1 : HasDerivAt r1 dr1 v) (hr2 : HasDerivAt r2 dr2 v) (hs0
    : HasDerivAt s0 ds0 v) (hxAl3T1 : HasDerivAt xAl3T1 (1 * dr0 + (-1) * ds0) v) (pxAl3T1 : 0 < xAl3T1 v)
    (hxAl3T2 : HasDerivAt xAl3T2 ((1 / 2) * dr0 + (1 / 2) * ds0) v) (pxAl3T2 : 0 < xAl3T2 v) (hxSi4T2 :
    HasDerivAt xSi4T2 ((-(1) / 2) * dr0 + (-(1) / 2) * ds0) v) (pxSi4T2 : 0 < xSi4T2 v) :
    HasDerivAt (fun v => D2GDR0S0 (t v) (xAl3T1 v) (xAl3T2 v) (xSi4T2 v))
    (((D3GDR0R0S0 (t v) (xAl3T1 v) (xAl3T2 v) (xSi4T2 v)) * dr0 + D3GDR0R1S0 * dr1 + D3GDR0R2S0 * dr2) +
    ((D3GDR0S0DT (xAl3T1 v) (xAl3T2 v) (xSi4T2 v)) * dt + D3GDR0S0DP * dp) + ((D3GDR0S0S0 (t v) (xAl3T1 v)
    (xAl3T2 v) (xSi4T2 v)) * ds0)) v := by
  have nxAl3T1 := pxAl3T1.ne'
  have nxAl3T2 := pxAl3T2.ne'
  have nxSi4T2 := pxSi4T2.ne'
  try simp only [D2GDR0S0, D3GDR0S0DT, D3GDR0S0DP, D3GDR0R0S0, D3GDR0R1S0, D3GDR0R2S0, D3GDR0S0S0, zero_mul, mul_zero, add_zero, zero_add, sub_zero]
  refine HasDerivAt.congr_deriv (by hdq) ?_
  ring

lemma c_D2GDR0DT {t p r0 r1 r2 s0 xMg2T1 xAl3T1 xAl3T2 xSi4T2 : ℝ → ℝ} {v dt dp dr0 dr1 dr2 ds0 : ℝ} (ht : HasDerivAt t dt v)
    (hp : HasDerivAt p dp v) (hr0 : HasDerivAt r0 dr0 v) (hr1 : HasDerivAt r1 dr1 v) (hr2 : HasDerivAt r2 dr2 v)
    (hs0 : HasDerivAt s0 ds0 v) (hxMg2T1 : HasDerivAt xMg2T1 ((-1) * dr0 + (-1) * dr1 + (-1) * dr2) v) (pxMg2T1
    : 0 < xMg2T1 v) (hxAl3T1 : HasDerivAt xAl3T1 (1 * dr0 + (-1) * ds0) v) (pxAl3T1 : 0 < xAl3T1 v) (hxAl3T2 :
    HasDerivAt xAl3T2 ((1 / 2) * dr0 + (1 / 2) * ds0) v) (pxAl3T2 : 0 < xAl3T2 v) (hxSi4T2 : HasDerivAt xSi4T2
    ((-(1) / 2) * dr0 + (-(1) / 2) * ds0) v) (pxSi4T2 : 0 < xSi4T2 v) :
    HasDerivAt (fun v => D2GDR0DT (xMg2T1 v) (xAl3T1 v) (xAl3T2 v) (xSi4T2 v))
    (((D3GDR0R0DT (xMg2T1 v) (xAl3T1 v) (xAl3T2 v) (xSi4T2 v)) * dr0 + (D3GDR0R1DT (xMg2T1 v)) * dr1 +
    (D3GDR0R2DT (xMg2T1 v)) * dr2) + (D3GDR0DT2 * dt + D3GDR0DTDP * dp) + ((D3GDR0S0DT (xAl3T1 v) (xAl3T2 v)
    (xSi4T2 v)) * ds0)) v := by
  have nxMg2T1 := pxMg2T1.ne'
  have nxAl3T1 := pxAl3T1.ne'
  have nxAl3T2 := pxAl3T2.ne'
  have nxSi4T2 := pxSi4T2.ne'
  try simp only [D2GDR0DT, D3GDR0DT2, D3GDR0DTDP, D3GDR0R0DT, D3GDR0R1DT, D3GDR0R2DT, D3GDR0S0DT, zero_mul, mul_zero, add_zero, zero_add, sub_zero]
  refine HasDerivAt.congr_deriv (by hdq) ?_
  ring

lemma c_D2GDR0DP {t p r0 r1 r2 s0 : ℝ → ℝ} {v dt dp dr0 dr1 dr2 ds0 : ℝ} (ht : HasDerivAt t dt v) (hp : HasDerivAt p dp v)
    (hr0 : HasDerivAt r0 dr0 v) (hr1 : HasDerivAt r1 dr1 v) (hr2 : HasDerivAt r2 dr2 v) (hs0 : HasDerivAt s0 ds0
    v) :
    HasDerivAt (fun v => D2GDR0DP)
    ((D3GDR0R0DP * dr0 + D3GDR0R1DP * dr1 + D3GDR0R2DP * dr2) + (D3GDR0DTDP * dt + D3GDR0DP2 * dp) + (D3GDR0S0DP
    * ds0)) v := by
  try simp only [D2GDR0DP, D3GDR0DTDP, D3GDR0DP2, D3GDR0R0DP, D3GDR0R1DP, D3GDR0R2DP, D3GDR0S0DP, zero_mul, mul_zero, add_zero, zero_add, sub_zero]
  refine HasDerivAt.congr_deriv (by hdq) ?_
  ring

lemma c_D2GDR1R1 {t p r0 r1 r2 s0 xMg2T1 xFe2T1 : ℝ → ℝ} {v dt dp dr0 dr1 dr2 ds0 : ℝ} (ht : HasDerivAt t dt v) (hp :
    HasDerivAt p dp v) (hr0 : HasDerivAt r0 dr0 v) (hr1 : HasDerivAt r1 dr1 v) (hr2 : HasDerivAt r2 dr2 v) (hs0
    : HasDerivAt s0 ds0 v) (hxMg2T1 : HasDerivAt xMg2T1 ((-1) * dr0 + (-1) * dr1 + (-1) * dr2) v) (pxMg2T1 : 0 <
    xMg2T1 v) (hxFe2T1 : HasDerivAt xFe2T1 (1 * dr1) v) (pxFe2T1 : 0 < xFe2T1 v) :
    HasDerivAt (fun v => D2GDR1R1 (t v) (xMg2T1 v) (xFe2T1 v))
    (((D3GDR0R1R1 (t v) (xMg2T1 v)) * dr0 + (D3GDR1R1R1 (t v) (xMg2T1 v) (xFe2T1 v)) * dr1 + (D3GDR1R1R2 (t v)
    (xMg2T1 v)) * dr2) + ((D3GDR1R1DT (xMg2T1 v) (xFe2T1 v)) * dt + D3GDR1R1DP * dp) + (D3GDR1R1S0 * ds0)) v := by
  have nxMg2T1 := pxMg2T1.ne'
  have nxFe2T1 := pxFe2T1.ne'
  try simp only [D2GDR1R1, D3GDR1R1DT, D3GDR1R1DP, D3GDR0R1R1, D3GDR1R1R1, D3GDR1R1R2, D3GDR1R1S0, zero_mul, mul_zero, add_zero, zero_add, sub_zero]
  refine HasDerivAt.congr_deriv (by hdq) ?_
  ring

lemma c_D2GDR1R2 {t p r0 r1 r2 s0 xMg2T1 : ℝ → ℝ} {v dt dp dr0 dr1 dr2 ds0 : ℝ} (ht : HasDerivAt t dt v) (hp : HasDerivAt p
    dp v) (hr0 : HasDerivAt r0 dr0 v) (hr1 : HasDerivAt r1 dr1 v) (hr2 : HasDerivAt r2 dr2 v) (hs0 : HasDerivAt
    s0 ds0 v) (hxMg2T1 : HasDerivAt xMg2T1 ((-1) * dr0 + (-1) * dr1 + (-1) * dr2) v) (pxMg2T1 : 0 < xMg2T1 v) :
    HasDerivAt (fun v => D2GDR1R2 (t v) (xMg2T1 v))
    (((D3GDR0R1R2 (t v) (xMg2T1 v)) * dr0 + (D3GDR1R1R2 (t v) (xMg2T1 v)) * dr1 + (D3GDR1R2R2 (t v) (xMg2T1 v)) *
    dr2) + ((D3GDR1R2DT (xMg2T1 v)) * dt + D3GDR1R2DP * dp) + (D3GDR1R2S0 * ds0)) v := by
  have nxMg2T1 := pxMg2T1.ne'
  try simp only [W34, W14, D2GDR1R2, D3GDR1R2DT, D3GDR1R2DP, D3GDR0R1R2, D3GDR1R1R2, D3GDR1R2R2, D3GDR1R2S0, zero_mul, mul_zero, add_zero, zero_add, sub_zero]
  refine HasDerivAt.congr_deriv (by hdq) ?_
  ring

lemma c_D2GDR1S0 {t p r0 r1 r2 s0 : ℝ → ℝ} {v dt dp dr0 dr1 dr2 ds0 : ℝ} (ht : HasDerivAt t dt v) (hp : HasDerivAt p dp v)
    (hr0 : HasDerivAt r0 dr0 v) (hr1 : HasDerivAt r1 dr1 v) (hr2 : HasDerivAt r2 dr2 v) (hs0 : HasDerivAt s0 ds0
    v) :
    HasDerivAt (fun v => D2GDR1S0)
    ((D3GDR0R1S0 * dr0 + D3GDR1R1S0 * dr1 + D3GDR1R2S0 * dr2) + (D3GDR1S0DT * dt + D3GDR1S0DP * dp) + (D3GDR1S0S0
    * ds0)) v := by
  try simp only [D2GDR1S0, D3GDR1S0DT, D3GDR1S0DP, D3GDR0R1S0, D3GDR1R1S0, D3GDR1R2S0, D3GDR1S0S0, zero_mul, mul_zero, add_zero, zero_add, sub_zero]
  refine HasDerivAt.congr_deriv (by hdq) ?_
  ring

lemma c_D2GDR1DT {t p r0 r1 r2 s0 xMg2T1 xFe2T1 : ℝ → ℝ} {v dt dp dr0 dr1 dr2 ds0 : ℝ} (ht : HasDerivAt t dt v) (hp :
    HasDerivAt p dp v) (hr0 : HasDerivAt r0 dr0 v) (hr1 : HasDerivAt r1 dr1 v) (hr2 : HasDerivAt r2 dr2 v) (hs0
    : HasDerivAt s0 ds0 v) (hxMg2T1 : HasDerivAt xMg2T1 ((-1) * dr0 + (-1) * dr1 + (-1) * dr2) v) (pxMg2T1 : 0 <
    xMg2T1 v) (hxFe2T1 : HasDerivAt xFe2T1 (1 * dr1) v) (pxFe2T1 : 0 < xFe2T1 v) :
    HasDerivAt (fun v => D2GDR1DT (xMg2T1 v) (xFe2T1 v))
    (((D3GDR0R1DT (xMg2T1 v)) * dr0 + (D3GDR1R1DT (xMg2T1 v) (xFe2T1 v)) * dr1 + (D3GDR1R2DT (xMg2T1 v)) * dr2) +
    (D3GDR1DT2 * dt + D3GDR1DTDP * dp) + (D3GDR1S0DT * ds0)) v := by
  have nxMg2T1 := pxMg2T1.ne'
  have nxFe2T1 := pxFe2T1.ne'
  try simp only [D2GDR1DT, D3GDR1DT2, D3GDR1DTDP, D3GDR0R1DT, D3GDR1R1DT, D3GDR1R2DT, D3GDR1S0DT, zero_mul, mul_zero, add_zero, zero_add, sub_zero]
  refine HasDerivAt.congr_deriv (by hdq) ?_
  ring

lemma c_D2GDR1DP {t p r0 r1 r2 s0 : ℝ → ℝ} {v dt dp dr0 dr1 dr2 ds0 : ℝ} (ht : HasDerivAt t dt v) (hp : HasDerivAt p dp v)
    (hr0 : HasDerivAt r0 dr0 v) (hr1 : HasDerivAt r1 dr1 v) (hr2 : HasDerivAt r2 dr2 v) (hs0 : HasDerivAt s0 ds0
    v) :
    HasDerivAt (fun v => D2GDR1DP)
    ((D3GDR0R1DP * dr0 + D3GDR1R1DP * dr1 + D3GDR1R2DP * dr2) + (D3GDR1DTDP * dt + D3GDR1DP2 * dp) + (D3GDR1S0DP
    * ds0)) v := by
  try simp only [D2GDR1DP, D3GDR1DTDP, D3GDR1DP2, D3GDR0R1DP, D3GDR1R1DP, D3GDR1R2DP, D3GDR1S0DP, zero_mul, mul_zero, add_zero, zero_add, sub_zero]
  refine HasDerivAt.congr_deriv (by hdq) ?_
  ring

lemma c_D2GDR2R2 {t p r0 r1 r2 s0 xCaOct xNaOct xMg2T1 xSi4T1 : ℝ → ℝ} {v dt dp dr0 dr1 dr2 ds0 : ℝ} (ht : HasDerivAt t dt v)
    (hp : HasDerivAt p dp v) (hr0 : HasDerivAt r0 dr0 v) (hr1 : HasDerivAt r1 dr1 v) (hr2 : HasDerivAt r2 dr2 v)
    (hs0 : HasDerivAt s0 ds0 v) (hxCaOct : HasDerivAt xCaOct ((-1) * dr2) v) (pxCaOct : 0 < xCaOct v) (hxNaOct :
    HasDerivAt xNaOct (1 * dr2) v) (pxNaOct : 0 < xNaOct v) (hxMg2T1 : HasDerivAt xMg2T1 ((-1) * dr0 + (-1) *
    dr1 + (-1) * dr2) v) (pxMg2T1 : 0 < xMg2T1 v) (hxSi4T1 : HasDerivAt xSi4T1 (1 * dr2 + 1 * ds0) v) (pxSi4T1 :
    0 < xSi4T1 v) :
    HasDerivAt (fun v => D2GDR2R2 (t v) (xCaOct v) (xNaOct v) (xMg2T1 v) (xSi4T1 v))
    (((D3GDR0R2R2 (t v) (xMg2T1 v)) * dr0 + (D3GDR1R2R2 (t v) (xMg2T1 v)) * dr1 + (D3GDR2R2R2 (t v) (xCaOct v)
    (xNaOct v) (xMg2T1 v) (xSi4T1 v)) * dr2) + ((D3GDR2R2DT (xCaOct v) (xNaOct v) (xMg2T1 v) (xSi4T1 v)) * dt +
    D3GDR2R2DP * dp) + ((D3GDR2R2S0 (t v) (xSi4T1 v)) * ds0)) v := by
  have nxCaOct := pxCaOct.ne'
  have nxNaOct := pxNaOct.ne'
  have nxMg2T1 := pxMg2T1.ne'
  have nxSi4T1 := pxSi4T1.ne'
  try simp only [W14, D2GDR2R2, D3GDR2R2DT, D3GDR2R2DP, D3GDR0R2R2, D3GDR1R2R2, D3GDR2R2R2, D3GDR2R2S0, zero_mul, mul_zero, add_zero, zero_add, sub_zero]
  refine HasDerivAt.congr_deriv (by hdq) ?_
  ring

lemma c_D2GDR2S0 {t p r0 r1 r2 s0 xSi4T1 : ℝ → ℝ} {v dt dp dr0 dr1 dr2 ds0 : ℝ} (ht : HasDerivAt t dt v) (hp : HasDerivAt p
    dp v) (hr0 : HasDerivAt r0 dr0 v) (hr1 : HasDerivAt r1 dr1 v) (hr2 : HasDerivAt r2 dr2 v) (hs0 : HasDerivAt
    s0 ds0 v) (hxSi4T1 : HasDerivAt xSi4T1 (1 * dr2 + 1 * ds0) v) (pxSi4T1 : 0 < xSi4T1 v) :
    HasDerivAt (fun v => D2GDR2S0 (t v) (xSi4T1 v))
    ((D3GDR0R2S0 * dr0 + D3GDR1R2S0 * dr1 + (D3GDR2R2S0 (t v) (xSi4T1 v)) * dr2) + ((D3GDR2S0DT (xSi4T1 v)) * dt
    + D3GDR2S0DP * dp) + ((D3GDR2S0S0 (t v) (xSi4T1 v)) * ds0)) v := by
  have nxSi4T1 := pxSi4T1.ne'
  try simp only [D2GDR2S0, D3GDR2S0DT, D3GDR2S0DP, D3GDR0R2S0, D3GDR1R2S0, D3GDR2R2S0, D3GDR2S0S0, zero_mul, mul_zero, add_zero, zero_add, sub_zero]
  refine HasDerivAt.congr_deriv (by hdq) ?_
  ring

lemma c_D2GDR2DT {t p r0 r1 r2 s0 xCaOct xNaOct xMg2T1 xSi4T1 : ℝ → ℝ} {v dt dp dr0 dr1 dr2 ds0 : ℝ} (ht : HasDerivAt t dt v)
    (hp : HasDerivAt p dp v) (hr0 : HasDerivAt r0 dr0 v) (hr1 : HasDerivAt r1 dr1 v) (hr2 : HasDerivAt r2 dr2 v)
    (hs0 : HasDerivAt s0 ds0 v) (hxCaOct : HasDerivAt xCaOct ((-1) * dr2) v) (pxCaOct : 0 < xCaOct v) (hxNaOct :
    HasDerivAt xNaOct (1 * dr2) v) (pxNaOct : 0 < xNaOct v) (hxMg2T1 : HasDerivAt xMg2T1 ((-1) * dr0 + (-1) *
    dr1 + (-1) * dr2) v) (pxMg2T1 : 0 < xMg2T1 v) (hxSi4T1 : HasDerivAt xSi4T1 (1 * dr2 + 1 * ds0) v) (pxSi4T1 :
    0 < xSi4T1 v) :
    HasDerivAt (fun v => D2GDR2DT (xCaOct v) (xNaOct v) (xMg2T1 v) (xSi4T1 v))
    (((D3GDR0R2DT (xMg2T1 v)) * dr0 + (D3GDR1R2DT (xMg2T1 v)) * dr1 + (D3GDR2R2DT (xCaOct v) (xNaOct v) (xMg2T1
    v) (xSi4T1 v)) * dr2) + (D3GDR2DT2 * dt + D3GDR2DTDP * dp) + ((D3GDR2S0DT (xSi4T1 v)) * ds0)) v := by
  have nxCaOct := pxCaOct.ne'
  have nxNaOct := pxNaOct.ne'
  have nxMg2T1 := pxMg2T1.ne'
  have nxSi4T1 := pxSi4T1.ne'
  try simp only [D2GDR2DT, D3GDR2DT2, D3GDR2DTDP, D3GDR0R2DT, D3GDR1R2DT, D3GDR2R2DT, D3GDR2S0DT, zero_mul, mul_zero, add_zero, zero_add, sub_zero]
  refine HasDerivAt.congr_deriv (by hdq) ?_
  ring

lemma c_D2GDR2DP {t p r0 r1 r2 s0 : ℝ → ℝ} {v dt dp dr0 dr1 dr2 ds0 : ℝ} (ht : HasDerivAt t dt v) (hp : HasDerivAt p dp v)
    (hr0 : HasDerivAt r0 dr0 v) (hr1 : HasDerivAt r1 dr1 v) (hr2 : HasDerivAt r2 dr2 v) (hs0 : HasDerivAt s0 ds0
    v) :
    HasDerivAt (fun v => D2GDR2DP)
    ((D3GDR0R2DP * dr0 + D3GDR1R2DP * dr1 + D3GDR2R2DP * dr2) + (D3GDR2DTDP * dt + D3GDR2DP2 * dp) + (D3GDR2S0DP
    * ds0)) v := by
  try simp only [D2GDR2DP, D3GDR2DTDP, D3GDR2DP2, D3GDR0R2DP, D3GDR1R2DP, D3GDR2R2DP, D3GDR2S0DP, zero_mul, mul_zero, add_zero, zero_add, sub_zero]
  refine HasDerivAt.congr_deriv (by hdq) ?_
  ring

lemma c_D2GDS0S0 {t p r0 r1 r2 s0 xAl3T1 xSi4T1 xAl3T2 xSi4T2 : ℝ → ℝ} {v dt dp dr0 dr1 dr2 ds0 : ℝ} (ht : HasDerivAt t dt v)
    (hp : HasDerivAt p dp v) (hr0 : HasDerivAt r0 dr0 v) (hr1 : HasDerivAt r1 dr1 v) (hr2 : HasDerivAt r2 dr2 v)
    (hs0 : HasDerivAt s0 ds0 v) (hxAl3T1 : HasDerivAt xAl3T1 (1 * dr0 + (-1) * ds0) v) (pxAl3T1 : 0 < xAl3T1 v)
    (hxSi4T1 : HasDerivAt xSi4T1 (1 * dr2 + 1 * ds0) v) (pxSi4T1 : 0 < xSi4T1 v) (hxAl3T2 : HasDerivAt xAl3T2
    ((1 / 2) * dr0 + (1 / 2) * ds0) v) (pxAl3T2 : 0 < xAl3T2 v) (hxSi4T2 : HasDerivAt xSi4T2 ((-(1) / 2) * dr0 +
    (-(1) / 2) * ds0) v) (pxSi4T2 : 0 < xSi4T2 v) :
    HasDerivAt (fun v => D2GDS0S0 (t v) (xAl3T1 v) (xSi4T1 v) (xAl3T2 v) (xSi4T2 v))
    (((D3GDR0S0S0 (t v) (xAl3T1 v) (xAl3T2 v) (xSi4T2 v)) * dr0 + D3GDR1S0S0 * dr1 + (D3GDR2S0S0 (t v) (xSi4T1
    v)) * dr2) + ((D3GDS0S0DT (xAl3T1 v) (xSi4T1 v) (xAl3T2 v) (xSi4T2 v)) * dt + D3GDS0S0DP * dp) +
    ((D3GDS0S0S0 (t v) (xAl3T1 v) (xSi4T1 v) (xAl3T2 v) (xSi4T2 v)) * ds0)) v := by
  have nxAl3T1 := pxAl3T1.ne'
  have nxSi4T1 := pxSi4T1.ne'
  have nxAl3T2 := pxAl3T2.ne'
  have nxSi4T2 := pxSi4T2.ne'
  try simp only [D2GDS0S0, D3GDS0S0DT, D3GDS0S0DP, D3GDR0S0S0, D3GDR1S0S0, D3GDR2S0S0, D3GDS0S0S0, zero_mul, mul_zero, add_zero, zero_add, sub_zero]
  refine HasDerivAt.congr_deriv (by hdq) ?_
  ring

lemma c_D2GDS0DT {t p r0 r1 r2 s0 xAl3T1 xSi4T1 xAl3T2 xSi4T2 : ℝ → ℝ} {v dt dp dr0 dr1 dr2 ds0 : ℝ} (ht : HasDerivAt t dt v)
    (hp : HasDerivAt p dp v) (hr0 : HasDerivAt r0 dr0 v) (hr1 : HasDerivAt r1 dr1 v) (hr2 : HasDerivAt r2 dr2 v)
    (hs0 : HasDerivAt s0 ds0 v) (hxAl3T1 : HasDerivAt xAl3T1 (1 * dr0 + (-1) * ds0) v) (pxAl3T1 : 0 < xAl3T1 v)
    (hxSi4T1 : HasDerivAt xSi4T1 (1 * dr2 + 1 * ds0) v) (pxSi4T1 : 0 < xSi4T1 v) (hxAl3T2 : HasDerivAt xAl3T2
    ((1 / 2) * dr0 + (1 / 2) * ds0) v) (pxAl3T2 : 0 < xAl3T2 v) (hxSi4T2 : HasDerivAt xSi4T2 ((-(1) / 2) * dr0 +
    (-(1) / 2) * ds0) v) (pxSi4T2 : 0 < xSi4T2 v) :
    HasDerivAt (fun v => D2GDS0DT (xAl3T1 v) (xSi4T1 v) (xAl3T2 v) (xSi4T2 v))
    (((D3GDR0S0DT (xAl3T1 v) (xAl3T2 v) (xSi4T2 v)) * dr0 + D3GDR1S0DT * dr1 + (D3GDR2S0DT (xSi4T1 v)) * dr2) +
    (D3GDS0DT2 * dt + D3GDS0DTDP * dp) + ((D3GDS0S0DT (xAl3T1 v) (xSi4T1 v) (xAl3T2 v) (xSi4T2 v)) * ds0)) v := by
  have nxAl3T1 := pxAl3T1.ne'
  have nxSi4T1 := pxSi4T1.ne'
  have nxAl3T2 := pxAl3T2.ne'
  have nxSi4T2 := pxSi4T2.ne'
  try simp only [D2GDS0DT, D3GDS0DT2, D3GDS0DTDP, D3GDR0S0DT, D3GDR1S0DT, D3GDR2S0DT, D3GDS0S0DT, zero_mul, mul_zero, add_zero, zero_add, sub_zero]
  refine HasDerivAt.congr_deriv (by hdq) ?_
  ring

lemma c_D2GDS0DP {t p r0 r1 r2 s0 : ℝ → ℝ} {v dt dp dr0 dr1 dr2 ds0 : ℝ} (ht : HasDerivAt t dt v) (hp : HasDerivAt p dp v)
    (hr0 : HasDerivAt r0 dr0 v) (hr1 : HasDerivAt r1 dr1 v) (hr2 : HasDerivAt r2 dr2 v) (hs0 : HasDerivAt s0 ds0
    v) :
    HasDerivAt (fun v => D2GDS0DP)
    ((D3GDR0S0DP * dr0 + D3GDR1S0DP * dr1 + D3GDR2S0DP * dr2) + (D3GDS0DTDP * dt + D3GDS0DP2 * dp) + (D3GDS0S0DP
    * ds0)) v := by
  try simp only [D2GDS0DP, D3GDS0DTDP, D3GDS0DP2, D3GDR0S0DP, D3GDR1S0DP, D3GDR2S0DP, D3GDS0S0DP, zero_mul, mul_zero, add_zero, zero_add, sub_zero]
  refine HasDerivAt.congr_deriv (by hdq) ?_
  ring

lemma c_D2GDT2 {t p r0 r1 r2 s0 : ℝ → ℝ} {v dt dp dr0 dr1 dr2 ds0 : ℝ} (ht : HasDerivAt t dt v) (hp : HasDerivAt p dp v)
    (hr0 : HasDerivAt r0 dr0 v) (hr1 : HasDerivAt r1 dr1 v) (hr2 : HasDerivAt r2 dr2 v) (hs0 : HasDerivAt s0 ds0
    v) :
    HasDerivAt (fun v => D2GDT2)
    ((D3GDR0DT2 * dr0 + D3GDR1DT2 * dr1 + D3GDR2DT2 * dr2) + (D3GDT3 * dt + D3GDT2DP * dp) + (D3GDS0DT2 * ds0)) v := by
  try simp only [D2GDT2, D3GDT3, D3GDT2DP, D3GDR0DT2, D3GDR1DT2, D3GDR2DT2, D3GDS0DT2, zero_mul, mul_zero, add_zero, zero_add, sub_zero]
  refine HasDerivAt.congr_deriv (by hdq) ?_
  ring

lemma c_D2GDTDP {t p r0 r1 r2 s0 : ℝ → ℝ} {v dt dp dr0 dr1 dr2 ds0 : ℝ} (ht : HasDerivAt t dt v) (hp : HasDerivAt p dp v)
    (hr0 : HasDerivAt r0 dr0 v) (hr1 : HasDerivAt r1 dr1 v) (hr2 : HasDerivAt r2 dr2 v) (hs0 : HasDerivAt s0 ds0
    v) :
    HasDerivAt (fun v => D2GDTDP)
    ((D3GDR0DTDP * dr0 + D3GDR1DTDP * dr1 + D3GDR2DTDP * dr2) + (D3GDT2DP * dt + D3GDTDP2 * dp) + (D3GDS0DTDP *
    ds0)) v := by
  try simp only [D2GDTDP, D3GDT2DP, D3GDTDP2, D3GDR0DTDP, D3GDR1DTDP, D3GDR2DTDP, D3GDS0DTDP, zero_mul, mul_zero, add_zero, zero_add, sub_zero]
  refine HasDerivAt.congr_deriv (by hdq) ?_
  ring

lemma c_D2GDP2 {t p r0 r1 r2 s0 : ℝ → ℝ} {v dt dp dr0 dr1 dr2 ds0 : ℝ} (ht : HasDerivAt t dt v) (hp : HasDerivAt p dp v)
    (hr0 : HasDerivAt r0 dr0 v) (hr1 : HasDerivAt r1 dr1 v) (hr2 : HasDerivAt r2 dr2 v) (hs0 : HasDerivAt s0 ds0
    v) :
    HasDerivAt (fun v => D2GDP2)
    ((D3GDR0DP2 * dr0 + D3GDR1DP2 * dr1 + D3GDR2DP2 * dr2) + (D3GDTDP2 * dt + D3GDP3 * dp) + (D3GDS0DP2 * ds0)) v := by
  try simp only [D2GDP2, D3GDTDP2, D3GDP3, D3GDR0DP2, D3GDR1DP2, D3GDR2DP2, D3GDS0DP2, zero_mul, mul_zero, add_zero, zero_add, sub_zero]
  refine HasDerivAt.congr_deriv (by hdq) ?_
  ring

attribute [local irreducible] S H G DGDR0 DGDR1 DGDR2 DGDS0 DGDT D2GDR0R0 D2GDR0R1 D2GDR0R2 D2GDR0S0
    D2GDR0DT D2GDR1R1 D2GDR1R2 D2GDR1DT D2GDR2R2 D2GDR2S0 D2GDR2DT D2GDS0S0 D2GDS0DT D3GDR0R0R0 D3GDR0R0R1
    D3GDR0R0R2 D3GDR0R0S0 D3GDR0R0DT D3GDR0R1R1 D3GDR0R1R2 D3GDR0R1DT D3GDR0R2R2 D3GDR0R2DT D3GDR0S0S0
    D3GDR0S0DT D3GDR1R1R1 D3GDR1R1R2 D3GDR1R1DT D3GDR1R2R2 D3GDR1R2DT D3GDR2R2R2 D3GDR2R2S0 D3GDR2R2DT
    D3GDR2S0S0 D3GDR2S0DT D3GDS0S0S0 D3GDS0S0DT

lemma gr_g (y : Var 3 1 → ℝ) (hy : Dom y) :
    Gr (fun y => (tables (raw y) y).g) y ((tables (raw y) y).at1) := by
  refine Gr.of_lines ?_ fun u => ?_
  · have hp := pos y hy
    change DifferentiableAt ℝ (fun y => G (y (.inl iT)) (y (.inl iP)) (y (.inl (.inl 0))) (y (.inl (.inl 1))) (y (.inl (.inl 2))) (y (.inr 0)) (raw y 0) (raw y 1) (raw y 2) (raw y 3) (raw y 4) (raw y 5) (raw y 6) (raw y 7)) y
    have d0 := raw_diff 0 y
    have q0 := hp.1
    have n0 := q0.ne'
    have d1 := raw_diff 1 y
    have q1 := hp.2.1
    have n1 := q1.ne'
    have d2 := raw_diff 2 y
    have q2 := hp.2.2.1
    have n2 := q2.ne'
    have d3 := raw_diff 3 y
    have q3 := hp.2.2.2.1
    have n3 := q3.ne'
    have d4 := raw_diff 4 y
    have q4 := hp.2.2.2.2.1
    have n4 := q4.ne'
    have d5 := raw_diff 5 y
    have q5 := hp.2.2.2.2.2.1
    have n5 := q5.ne'
    have d6 := raw_diff 6 y
    have q6 := hp.2.2.2.2.2.2.1
    have n6 := q6.ne'
    have d7 := raw_diff 7 y
    have q7 := hp.2.2.2.2.2.2.2
    have n7 := q7.ne'
    try simp only [W14, W34, H, S, V, G, zero_mul, mul_zero, add_zero, zero_add, sub_zero]
    ddq
  · have hp := pos y hy
    have h := c_G (hl y u ((.inl iT))) (hl y u ((.inl iP))) (hl y u ((.inl (.inl 0)))) (hl y u ((.inl (.inl
        1)))) (hl y u ((.inl (.inl 2)))) (hl y u ((.inr 0))) (raw_line0 y u) (by simpa only
        [zero_mul, add_zero] using hp.1) (raw_line1 y u) (by simpa only [zero_mul, add_zero] using
        hp.2.1) (raw_line2 y u) (by simpa only [zero_mul, add_zero] using hp.2.2.1) (raw_line3 y
        u) (by simpa only [zero_mul, add_zero] using hp.2.2.2.1) (raw_line4 y u) (by simpa only
        [zero_mul, add_zero] using hp.2.2.2.2.1) (raw_line5 y u) (by simpa only [zero_mul,
        add_zero] using hp.2.2.2.2.2.1) (raw_line6 y u) (by simpa only [zero_mul, add_zero] using
        hp.2.2.2.2.2.2.1) (raw_line7 y u) (by simpa only [zero_mul, add_zero] using
        hp.2.2.2.2.2.2.2)
    try simp only [zero_mul, add_zero] at h
    refine h.congr_deriv ?_
    rw [sum_var]; simp only [Fin.sum_univ_one, Fin.sum_univ_three]; rfl

lemma gr_dgdr_0 (y : Var 3 1 → ℝ) (hy : Dom y) :
    Gr (fun y => (tables (raw y) y).dgdr 0) y ((tables (raw y) y).at2 (.inl (.inl 0))) := by
  refine Gr.of_lines ?_ fun u => ?_
  · have hp := pos y hy
    change DifferentiableAt ℝ (fun y => DGDR0 (y (.inl iT)) (y (.inl (.inl 0))) (y (.inl (.inl 1))) (y (.inl (.inl 2))) (y (.inr 0)) (raw y 2) (raw y 4) (raw y 6) (raw y 7)) y
    have d2 := raw_diff 2 y
    have q2 := hp.2.2.1
    have n2 := q2.ne'
    have d4 := raw_diff 4 y
    have q4 := hp.2.2.2.2.1
    have n4 := q4.ne'
    have d6 := raw_diff 6 y
    have q6 := hp.2.2.2.2.2.2.1
    have n6 := q6.ne'
    have d7 := raw_diff 7 y
    have q7 := hp.2.2.2.2.2.2.2
    have n7 := q7.ne'
    try simp only [W14, DGDR0, zero_mul, mul_zero, add_zero, zero_add, sub_zero]
    ddq
  · have hp := pos y hy
    have h := c_DGDR0 (hl y u ((.inl iT))) (hl y u ((.inl iP))) (hl y u ((.inl (.inl 0)))) (hl y u ((.inl (.inl
        1)))) (hl y u ((.inl (.inl 2)))) (hl y u ((.inr 0))) (raw_line2 y u) (by simpa only
        [zero_mul, add_zero] using hp.2.2.1) (raw_line4 y u) (by simpa only [zero_mul, add_zero]
        using hp.2.2.2.2.1) (raw_line6 y u) (by simpa only [zero_mul, add_zero] using
        hp.2.2.2.2.2.2.1) (raw_line7 y u) (by simpa only [zero_mul, add_zero] using
        hp.2.2.2.2.2.2.2)
    try simp only [zero_mul, add_zero] at h
    refine h.congr_deriv ?_
    rw [sum_var]; simp only [Fin.sum_univ_one, Fin.sum_univ_three]; rfl

lemma gr_dgdr_1 (y : Var 3 1 → ℝ) (hy : Dom y) :
    Gr (fun y => (tables (raw y) y).dgdr 1) y ((tables (raw y) y).at2 (.inl (.inl 1))) := by
  refine Gr.of_lines ?_ fun u => ?_
  · have hp := pos y hy
    change DifferentiableAt ℝ (fun y => DGDR1 (y (.inl iT)) (y (.inl (.inl 0))) (y (.inl (.inl 1))) (y (.inl (.inl 2))) (y (.inr 0)) (raw y 2) (raw y 3)) y
    have d2 := raw_diff 2 y
    have q2 := hp.2.2.1
    have n2 := q2.ne'
    have d3 := raw_diff 3 y
    have q3 := hp.2.2.2.1
    have n3 := q3.ne'
    try simp only [W34, W14, DGDR1, zero_mul, mul_zero, add_zero, zero_add, sub_zero]
    ddq
  · have hp := pos y hy
    have h := c_DGDR1 (hl y u ((.inl iT))) (hl y u ((.inl iP))) (hl y u ((.inl (.inl 0)))) (hl y u ((.inl (.inl
        1)))) (hl y u ((.inl (.inl 2)))) (hl y u ((.inr 0))) (raw_line2 y u) (by simpa only
        [zero_mul, add_zero] using hp.2.2.1) (raw_line3 y u) (by simpa only [zero_mul, add_zero]
        using hp.2.2.2.1)
    try simp only [zero_mul, add_zero] at h
    refine h.congr_deriv ?_
    rw [sum_var]; simp only [Fin.sum_univ_one, Fin.sum_univ_three]; rfl

lemma gr_dgdr_2 (y : Var 3 1 → ℝ) (hy : Dom y) :
    Gr (fun y => (tables (raw y) y).dgdr 2) y ((tables (raw y) y).at2 (.inl (.inl 2))) := by
  refine Gr.of_lines ?_ fun u => ?_
  · have hp := pos y hy
    change DifferentiableAt ℝ (fun y => DGDR2 (y (.inl iT)) (y (.inl (.inl 0))) (y (.inl (.inl 1))) (y (.inl (.inl 2))) (y (.inr 0)) (raw y 0) (raw y 1) (raw y 2) (raw y 5)) y
    have d0 := raw_diff 0 y
    have q0 := hp.1
    have n0 := q0.ne'
    have d1 := raw_diff 1 y
    have q1 := hp.2.1
    have n1 := q1.ne'
    have d2 := raw_diff 2 y
    have q2 := hp.2.2.1
    have n2 := q2.ne'
    have d5 := raw_diff 5 y
    have q5 := hp.2.2.2.2.2.1
    have n5 := q5.ne'
    try simp only [W14, W34, DGDR2, zero_mul, mul_zero, add_zero, zero_add, sub_zero]
    ddq
  · have hp := pos y hy
    have h := c_DGDR2 (hl y u ((.inl iT))) (hl y u ((.inl iP))) (hl y u ((.inl (.inl 0)))) (hl y u ((.inl (.inl
        1)))) (hl y u ((.inl (.inl 2)))) (hl y u ((.inr 0))) (raw_line0 y u) (by simpa only
        [zero_mul, add_zero] using hp.1) (raw_line1 y u) (by simpa only [zero_mul, add_zero] using
        hp.2.1) (raw_line2 y u) (by simpa only [zero_mul, add_zero] using hp.2.2.1) (raw_line5 y
        u) (by simpa only [zero_mul, add_zero] using hp.2.2.2.2.2.1)
    try simp only [zero_mul, add_zero] at h
    refine h.congr_deriv ?_
    rw [sum_var]; simp only [Fin.sum_univ_one, Fin.sum_univ_three]; rfl

lemma gr_dgds_0 (y : Var 3 1 → ℝ) (hy : Dom y) :
    Gr (fun y => (tables (raw y) y).dgds 0) y ((tables (raw y) y).at2 (.inr 0)) := by
  refine Gr.of_lines ?_ fun u => ?_
  · have hp := pos y hy
    change DifferentiableAt ℝ (fun y => DGDS0 (y (.inl iT)) (y (.inl (.inl 0))) (y (.inl (.inl 1))) (y (.inl (.inl 2))) (y (.inr 0)) (raw y 4) (raw y 5) (raw y 6) (raw y 7)) y
    have d4 := raw_diff 4 y
    have q4 := hp.2.2.2.2.1
    have n4 := q4.ne'
    have d5 := raw_diff 5 y
    have q5 := hp.2.2.2.2.2.1
    have n5 := q5.ne'
    have d6 := raw_diff 6 y
    have q6 := hp.2.2.2.2.2.2.1
    have n6 := q6.ne'
    have d7 := raw_diff 7 y
    have q7 := hp.2.2.2.2.2.2.2
    have n7 := q7.ne'
    try simp only [DGDS0, zero_mul, mul_zero, add_zero, zero_add, sub_zero]
    ddq
  · have hp := pos y hy
    have h := c_DGDS0 (hl y u ((.inl iT))) (hl y u ((.inl iP))) (hl y u ((.inl (.inl 0)))) (hl y u ((.inl (.inl
        1)))) (hl y u ((.inl (.inl 2)))) (hl y u ((.inr 0))) (raw_line4 y u) (by simpa only
        [zero_mul, add_zero] using hp.2.2.2.2.1) (raw_line5 y u) (by simpa only [zero_mul,
        add_zero] using hp.2.2.2.2.2.1) (raw_line6 y u) (by simpa only [zero_mul, add_zero] using
        hp.2.2.2.2.2.2.1) (raw_line7 y u) (by simpa only [zero_mul, add_zero] using
        hp.2.2.2.2.2.2.2)
    try simp only [zero_mul, add_zero] at h
    refine h.congr_deriv ?_
    rw [sum_var]; simp only [Fin.sum_univ_one, Fin.sum_univ_three]; rfl

lemma gr_dgdt (y : Var 3 1 → ℝ) (hy : Dom y) :
    Gr (fun y => (tables (raw y) y).dgdt) y ((tables (raw y) y).at2 (.inl iT)) := by
  refine Gr.of_lines ?_ fun u => ?_
  · have hp := pos y hy
    change DifferentiableAt ℝ (fun y => DGDT (raw y 0) (raw y 1) (raw y 2) (raw y 3) (raw y 4) (raw y 5) (raw y 6) (raw y 7)) y
    have d0 := raw_diff 0 y
    have q0 := hp.1
    have n0 := q0.ne'
    have d1 := raw_diff 1 y
    have q1 := hp.2.1
    have n1 := q1.ne'
    have d2 := raw_diff 2 y
    have q2 := hp.2.2.1
    have n2 := q2.ne'
    have d3 := raw_diff 3 y
    have q3 := hp.2.2.2.1
    have n3 := q3.ne'
    have d4 := raw_diff 4 y
    have q4 := hp.2.2.2.2.1
    have n4 := q4.ne'
    have d5 := raw_diff 5 y
    have q5 := hp.2.2.2.2.2.1
    have n5 := q5.ne'
    have d6 := raw_diff 6 y
    have q6 := hp.2.2.2.2.2.2.1
    have n6 := q6.ne'
    have d7 := raw_diff 7 y
    have q7 := hp.2.2.2.2.2.2.2
    have n7 := q7.ne'
    try simp only [S, DGDT, zero_mul, mul_zero, add_zero, zero_add, sub_zero]
    ddq
  · have hp := pos y hy
    have h := c_DGDT (hl y u ((.inl iT))) (hl y u ((.inl iP))) (hl y u ((.inl (.inl 0)))) (hl y u ((.inl (.inl
        1)))) (hl y u ((.inl (.inl 2)))) (hl y u ((.inr 0))) (raw_line0 y u) (by simpa only
        [zero_mul, add_zero] using hp.1) (raw_line1 y u) (by simpa only [zero_mul, add_zero] using
        hp.2.1) (raw_line2 y u) (by simpa only [zero_mul, add_zero] using hp.2.2.1) (raw_line3 y
        u) (by simpa only [zero_mul, add_zero] using hp.2.2.2.1) (raw_line4 y u) (by simpa only
        [zero_mul, add_zero] using hp.2.2.2.2.1) (raw_line5 y u) (by simpa only [zero_mul,
        add_zero] using hp.2.2.2.2.2.1) (raw_line6 y u) (by simpa only [zero_mul, add_zero] using
        hp.2.2.2.2.2.2.1) (raw_line7 y u) (by simpa only [zero_mul, add_zero] using
        hp.2.2.2.2.2.2.2)
    try simp only [zero_mul, add_zero] at h
    refine h.congr_deriv ?_
    rw [sum_var]; simp only [Fin.sum_univ_one, Fin.sum_univ_three]; rfl

lemma gr_dgdp (y : Var 3 1 → ℝ) (hy : Dom y) :
    Gr (fun y => (tables (raw y) y).dgdp) y ((tables (raw y) y).at2 (.inl iP)) := by
  refine Gr.of_lines ?_ fun u => ?_
  · have hp := pos y hy
    change DifferentiableAt ℝ (fun y => DGDP) y
    try simp only [V, DGDP, zero_mul, mul_zero, add_zero, zero_add, sub_zero]
    ddq
  · have hp := pos y hy
    have h := c_DGDP (hl y u ((.inl iT))) (hl y u ((.inl iP))) (hl y u ((.inl (.inl 0)))) (hl y u ((.inl (.inl
        1)))) (hl y u ((.inl (.inl 2)))) (hl y u ((.inr 0)))
    try simp only [zero_mul, add_zero] at h
    refine h.congr_deriv ?_
    rw [sum_var]; simp only [Fin.sum_univ_one, Fin.sum_univ_three]; rfl

lemma gr_d2gdr2_0_0 (y : Var 3 1 → ℝ) (hy : Dom y) :
    Gr (fun y => (tables (raw y) y).d2gdr2 0 0) y ((tables (raw y) y).at3 (.inl (.inl 0)) (.inl (.inl 0))) := by
  refine Gr.of_lines ?_ fun u => ?_
  · have hp := pos y hy
    change DifferentiableAt ℝ (fun y => D2GDR0R0 (y (.inl iT)) (raw y 2) (raw y 4) (raw y 6) (raw y 7)) y
    have d2 := raw_diff 2 y
    have q2 := hp.2.2.1
    have n2 := q2.ne'
    have d4 := raw_diff 4 y
    have q4 := hp.2.2.2.2.1
    have n4 := q4.ne'
    have d6 := raw_diff 6 y
    have q6 := hp.2.2.2.2.2.2.1
    have n6 := q6.ne'
    have d7 := raw_diff 7 y
    have q7 := hp.2.2.2.2.2.2.2
    have n7 := q7.ne'
    try simp only [D2GDR0R0, zero_mul, mul_zero, add_zero, zero_add, sub_zero]
    ddq
  · have hp := pos y hy
    have h := c_D2GDR0R0 (hl y u ((.inl iT))) (hl y u ((.inl iP))) (hl y u ((.inl (.inl 0)))) (hl y u ((.inl (.inl
        1)))) (hl y u ((.inl (.inl 2)))) (hl y u ((.inr 0))) (raw_line2 y u) (by simpa only
        [zero_mul, add_zero] using hp.2.2.1) (raw_line4 y u) (by simpa only [zero_mul, add_zero]
        using hp.2.2.2.2.1) (raw_line6 y u) (by simpa only [zero_mul, add_zero] using
        hp.2.2.2.2.2.2.1) (raw_line7 y u) (by simpa only [zero_mul, add_zero] using
        hp.2.2.2.2.2.2.2)
    try simp only [zero_mul, add_zero] at h
    refine h.congr_deriv ?_
    rw [sum_var]; simp only [Fin.sum_univ_one, Fin.sum_univ_three]; rfl

lemma gr_d2gdr2_0_1 (y : Var 3 1 → ℝ) (hy : Dom y) :
    Gr (fun y => (tables (raw y) y).d2gdr2 0 1) y ((tables (raw y) y).at3 (.inl (.inl 0)) (.inl (.inl 1))) := by
  refine Gr.of_lines ?_ fun u => ?_
  · have hp := pos y hy
    change DifferentiableAt ℝ (fun y => D2GDR0R1 (y (.inl iT)) (raw y 2)) y
    have d2 := raw_diff 2 y
    have q2 := hp.2.2.1
    have n2 := q2.ne'
    try simp only [D2GDR0R1, zero_mul, mul_zero, add_zero, zero_add, sub_zero]
    ddq
  · have hp := pos y hy
    have h := c_D2GDR0R1 (hl y u ((.inl iT))) (hl y u ((.inl iP))) (hl y u ((.inl (.inl 0)))) (hl y u ((.inl (.inl
        1)))) (hl y u ((.inl (.inl 2)))) (hl y u ((.inr 0))) (raw_line2 y u) (by simpa only
        [zero_mul, add_zero] using hp.2.2.1)
    try simp only [zero_mul, add_zero] at h
    refine h.congr_deriv ?_
    rw [sum_var]; simp only [Fin.sum_univ_one, Fin.sum_univ_three]; rfl

lemma gr_d2gdr2_0_2 (y : Var 3 1 → ℝ) (hy : Dom y) :
    Gr (fun y => (tables (raw y) y).d2gdr2 0 2) y ((tables (raw y) y).at3 (.inl (.inl 0)) (.inl (.inl 2))) := by
  refine Gr.of_lines ?_ fun u => ?_
  · have hp := pos y hy
    change DifferentiableAt ℝ (fun y => D2GDR0R2 (y (.inl iT)) (raw y 2)) y
    have d2 := raw_diff 2 y
    have q2 := hp.2.2.1
    have n2 := q2.ne'
    try simp only [W14, D2GDR0R2, zero_mul, mul_zero, add_zero, zero_add, sub_zero]
    ddq
  · have hp := pos y hy
    have h := c_D2GDR0R2 (hl y u ((.inl iT))) (hl y u ((.inl iP))) (hl y u ((.inl (.inl 0)))) (hl y u ((.inl (.inl
        1)))) (hl y u ((.inl (.inl 2)))) (hl y u ((.inr 0))) (raw_line2 y u) (by simpa only
        [zero_mul, add_zero] using hp.2.2.1)
    try simp only [zero_mul, add_zero] at h
    refine h.congr_deriv ?_
    rw [sum_var]; simp only [Fin.sum_univ_one, Fin.sum_univ_three]; rfl

lemma gr_d2gdrds_0_0 (y : Var 3 1 → ℝ) (hy : Dom y) :
    Gr (fun y => (tables (raw y) y).d2gdrds 0 0) y ((tables (raw y) y).at3 (.inl (.inl 0)) (.inr 0)) := by
  refine Gr.of_lines ?_ fun u => ?_
  · have hp := pos y hy
    change DifferentiableAt ℝ (fun y => D2GDR0S0 (y (.inl iT)) (raw y 4) (raw y 6) (raw y 7)) y
    have d4 := raw_diff 4 y
    have q4 := hp.2.2.2.2.1
    have n4 := q4.ne'
    have d6 := raw_diff 6 y
    have q6 := hp.2.2.2.2.2.2.1
    have n6 := q6.ne'
    have d7 := raw_diff 7 y
    have q7 := hp.2.2.2.2.2.2.2
    have n7 := q7.ne'
    try simp only [D2GDR0S0, zero_mul, mul_zero, add_zero, zero_add, sub_zero]
    ddq
  · have hp := pos y hy
    have h := c_D2GDR0S0 (hl y u ((.inl iT))) (hl y u ((.inl iP))) (hl y u ((.inl (.inl 0)))) (hl y u ((.inl (.inl
        1)))) (hl y u ((.inl (.inl 2)))) (hl y u ((.inr 0))) (raw_line4 y u) (by simpa only
        [zero_mul, add_zero] using hp.2.2.2.2.1) (raw_line6 y u) (by simpa only [zero_mul,
        add_zero] using hp.2.2.2.2.2.2.1) (raw_line7 y u) (by simpa only [zero_mul, add_zero]
        using hp.2.2.2.2.2.2.2)
    try simp only [zero_mul, add_zero] at h
    refine h.congr_deriv ?_
    rw [sum_var]; simp only [Fin.sum_univ_one, Fin.sum_univ_three]; rfl

lemma gr_d2gdrdt_0 (y : Var 3 1 → ℝ) (hy : Dom y) :
    Gr (fun y => (tables (raw y) y).d2gdrdt 0) y ((tables (raw y) y).at3 (.inl (.inl 0)) (.inl iT)) := by
  refine Gr.of_lines ?_ fun u => ?_
  · have hp := pos y hy
    change DifferentiableAt ℝ (fun y => D2GDR0DT (raw y 2) (raw y 4) (raw y 6) (raw y 7)) y
    have d2 := raw_diff 2 y
    have q2 := hp.2.2.1
    have n2 := q2.ne'
    have d4 := raw_diff 4 y
    have q4 := hp.2.2.2.2.1
    have n4 := q4.ne'
    have d6 := raw_diff 6 y
    have q6 := hp.2.2.2.2.2.2.1
    have n6 := q6.ne'
    have d7 := raw_diff 7 y
    have q7 := hp.2.2.2.2.2.2.2
    have n7 := q7.ne'
    try simp only [D2GDR0DT, zero_mul, mul_zero, add_zero, zero_add, sub_zero]
    ddq
  · have hp := pos y hy
    have h := c_D2GDR0DT (hl y u ((.inl iT))) (hl y u ((.inl iP))) (hl y u ((.inl (.inl 0)))) (hl y u ((.inl (.inl
        1)))) (hl y u ((.inl (.inl 2)))) (hl y u ((.inr 0))) (raw_line2 y u) (by simpa only
        [zero_mul, add_zero] using hp.2.2.1) (raw_line4 y u) (by simpa only [zero_mul, add_zero]
        using hp.2.2.2.2.1) (raw_line6 y u) (by simpa only [zero_mul, add_zero] using
        hp.2.2.2.2.2.2.1) (raw_line7 y u) (by simpa only [zero_mul, add_zero] using
        hp.2.2.2.2.2.2.2)
    try simp only [zero_mul, add_zero] at h
    refine h.congr_deriv ?_
    rw [sum_var]; simp only [Fin.sum_univ_one, Fin.sum_univ_three]; rfl

lemma gr_d2gdrdp_0 (y : Var 3 1 → ℝ) (hy : Dom y) :
    Gr (fun y => (tables (raw y) y).d2gdrdp 0) y ((tables (raw y) y).at3 (.inl (.inl 0)) (.inl iP)) := by
  refine Gr.of_lines ?_ fun u => ?_
  · have hp := pos y hy
    change DifferentiableAt ℝ (fun y => D2GDR0DP) y
    try simp only [D2GDR0DP, zero_mul, mul_zero, add_zero, zero_add, sub_zero]
    ddq
  · have hp := pos y hy
    have h := c_D2GDR0DP (hl y u ((.inl iT))) (hl y u ((.inl iP))) (hl y u ((.inl (.inl 0)))) (hl y u ((.inl (.inl
        1)))) (hl y u ((.inl (.inl 2)))) (hl y u ((.inr 0)))
    try simp only [zero_mul, add_zero] at h
    refine h.congr_deriv ?_
    rw [sum_var]; simp only [Fin.sum_univ_one, Fin.sum_univ_three]; rfl

lemma gr_d2gdr2_1_1 (y : Var 3 1 → ℝ) (hy : Dom y) :
    Gr (fun y => (tables (raw y) y).d2gdr2 1 1) y ((tables (raw y) y).at3 (.inl (.inl 1)) (.inl (.inl 1))) := by
  refine Gr.of_lines ?_ fun u => ?_
  · have hp := pos y hy
    change DifferentiableAt ℝ (fun y => D2GDR1R1 (y (.inl iT)) (raw y 2) (raw y 3)) y
    have d2 := raw_diff 2 y
    have q2 := hp.2.2.1
    have n2 := q2.ne'
    have d3 := raw_diff 3 y
    have q3 := hp.2.2.2.1
    have n3 := q3.ne'
    try simp only [D2GDR1R1, zero_mul, mul_zero, add_zero, zero_add, sub_zero]
    ddq
  · have hp := pos y hy
    have h := c_D2GDR1R1 (hl y u ((.inl iT))) (hl y u ((.inl iP))) (hl y u ((.inl (.inl 0)))) (hl y u ((.inl (.inl
        1)))) (hl y u ((.inl (.inl 2)))) (hl y u ((.inr 0))) (raw_line2 y u) (by simpa only
        [zero_mul, add_zero] using hp.2.2.1) (raw_line3 y u) (by simpa only [zero_mul, add_zero]
        using hp.2.2.2.1)
    try simp only [zero_mul, add_zero] at h
    refine h.congr_deriv ?_
    rw [sum_var]; simp only [Fin.sum_univ_one, Fin.sum_univ_three]; rfl

lemma gr_d2gdr2_1_2 (y : Var 3 1 → ℝ) (hy : Dom y) :
    Gr (fun y => (tables (raw y) y).d2gdr2 1 2) y ((tables (raw y) y).at3 (.inl (.inl 1)) (.inl (.inl 2))) := by
  refine Gr.of_lines ?_ fun u => ?_
  · have hp := pos y hy
    change DifferentiableAt ℝ (fun y => D2GDR1R2 (y (.inl iT)) (raw y 2)) y
    have d2 := raw_diff 2 y
    have q2 := hp.2.2.1
    have n2 := q2.ne'
    try simp only [W34, W14, D2GDR1R2, zero_mul, mul_zero, add_zero, zero_add, sub_zero]
    ddq
  · have hp := pos y hy
    have h := c_D2GDR1R2 (hl y u ((.inl iT))) (hl y u ((.inl iP))) (hl y u ((.inl (.inl 0)))) (hl y u ((.inl (.inl
        1)))) (hl y u ((.inl (.inl 2)))) (hl y u ((.inr 0))) (raw_line2 y u) (by simpa only
        [zero_mul, add_zero] using hp.2.2.1)
    try simp only [zero_mul, add_zero] at h
    refine h.congr_deriv ?_
    rw [sum_var]; simp only [Fin.sum_univ_one, Fin.sum_univ_three]; rfl

lemma gr_d2gdrds_1_0 (y : Var 3 1 → ℝ) (hy : Dom y) :
    Gr (fun y => (tables (raw y) y).d2gdrds 1 0) y ((tables (raw y) y).at3 (.inl (.inl 1)) (.inr 0)) := by
  refine Gr.of_lines ?_ fun u => ?_
  · have hp := pos y hy
    change DifferentiableAt ℝ (fun y => D2GDR1S0) y
    try simp only [D2GDR1S0, zero_mul, mul_zero, add_zero, zero_add, sub_zero]
    ddq
  · have hp := pos y hy
    have h := c_D2GDR1S0 (hl y u ((.inl iT))) (hl y u ((.inl iP))) (hl y u ((.inl (.inl 0)))) (hl y u ((.inl (.inl
        1)))) (hl y u ((.inl (.inl 2)))) (hl y u ((.inr 0)))
    try simp only [zero_mul, add_zero] at h
    refine h.congr_deriv ?_
    rw [sum_var]; simp only [Fin.sum_univ_one, Fin.sum_univ_three]; rfl

lemma gr_d2gdrdt_1 (y : Var 3 1 → ℝ) (hy : Dom y) :
    Gr (fun y => (tables (raw y) y).d2gdrdt 1) y ((tables (raw y) y).at3 (.inl (.inl 1)) (.inl iT)) := by
  refine Gr.of_lines ?_ fun u => ?_
  · have hp := pos y hy
    change DifferentiableAt ℝ (fun y => D2GDR1DT (raw y 2) (raw y 3)) y
    have d2 := raw_diff 2 y
    have q2 := hp.2.2.1
    have n2 := q2.ne'
    have d3 := raw_diff 3 y
    have q3 := hp.2.2.2.1
    have n3 := q3.ne'
    try simp only [D2GDR1DT, zero_mul, mul_zero, add_zero, zero_add, sub_zero]
    ddq
  · have hp := pos y hy
    have h := c_D2GDR1DT (hl y u ((.inl iT))) (hl y u ((.inl iP))) (hl y u ((.inl (.inl 0)))) (hl y u ((.inl (.inl
        1)))) (hl y u ((.inl (.inl 2)))) (hl y u ((.inr 0))) (raw_line2 y u) (by simpa only
        [zero_mul, add_zero] using hp.2.2.1) (raw_line3 y u) (by simpa only [zero_mul, add_zero]
        using hp.2.2.2.1)
    try simp only [zero_mul, add_zero] at h
    refine h.congr_deriv ?_
    rw [sum_var]; simp only [Fin.sum_univ_one, Fin.sum_univ_three]; rfl

lemma gr_d2gdrdp_1 (y : Var 3 1 → ℝ) (hy : Dom y) :
    Gr (fun y => (tables (raw y) y).d2gdrdp 1) y ((tables (raw y) y).at3 (.inl (.inl 1)) (.inl iP)) := by
  refine Gr.of_lines ?_ fun u => ?_
  · have hp := pos y hy
    change DifferentiableAt ℝ (fun y => D2GDR1DP) y
    try simp only [D2GDR1DP, zero_mul, mul_zero, add_zero, zero_add, sub_zero]
    ddq
  · have hp := pos y hy
    have h := c_D2GDR1DP (hl y u ((.inl iT))) (hl y u ((.inl iP))) (hl y u ((.inl (.inl 0)))) (hl y u ((.inl (.inl
        1)))) (hl y u ((.inl (.inl 2)))) (hl y u ((.inr 0)))
    try simp only [zero_mul, add_zero] at h
    refine h.congr_deriv ?_
    rw [sum_var]; simp only [Fin.sum_univ_one, Fin.sum_univ_three]; rfl

lemma gr_d2gdr2_2_2 (y : Var 3 1 → ℝ) (hy : Dom y) :
    Gr (fun y => (tables (raw y) y).d2gdr2 2 2) y ((tables (raw y) y).at3 (.inl (.inl 2)) (.inl (.inl 2))) := by
  refine Gr.of_lines ?_ fun u => ?_
  · have hp := pos y hy
    change DifferentiableAt ℝ (fun y => D2GDR2R2 (y (.inl iT)) (raw y 0) (raw y 1) (raw y 2) (raw y 5)) y
    have d0 := raw_diff 0 y
    have q0 := hp.1
    have n0 := q0.ne'
    have d1 := raw_diff 1 y
    have q1 := hp.2.1
    have n1 := q1.ne'
    have d2 := raw_diff 2 y
    have q2 := hp.2.2.1
    have n2 := q2.ne'
    have d5 := raw_diff 5 y
    have q5 := hp.2.2.2.2.2.1
    have n5 := q5.ne'
    try simp only [W14, D2GDR2R2, zero_mul, mul_zero, add_zero, zero_add, sub_zero]
    ddq
  · have hp := pos y hy
    have h := c_D2GDR2R2 (hl y u ((.inl iT))) (hl y u ((.inl iP))) (hl y u ((.inl (.inl 0)))) (hl y u ((.inl (.inl
        1)))) (hl y u ((.inl (.inl 2)))) (hl y u ((.inr 0))) (raw_line0 y u) (by simpa only
        [zero_mul, add_zero] using hp.1) (raw_line1 y u) (by simpa only [zero_mul, add_zero] using
        hp.2.1) (raw_line2 y u) (by simpa only [zero_mul, add_zero] using hp.2.2.1) (raw_line5 y
        u) (by simpa only [zero_mul, add_zero] using hp.2.2.2.2.2.1)
    try simp only [zero_mul, add_zero] at h
    refine h.congr_deriv ?_
    rw [sum_var]; simp only [Fin.sum_univ_one, Fin.sum_univ_three]; rfl

lemma gr_d2gdrds_2_0 (y : Var 3 1 → ℝ) (hy : Dom y) :
    Gr (fun y => (tables (raw y) y).d2gdrds 2 0) y ((tables (raw y) y).at3 (.inl (.inl 2)) (.inr 0)) := by
  refine Gr.of_lines ?_ fun u => ?_
  · have hp := pos y hy
    change DifferentiableAt ℝ (fun y => D2GDR2S0 (y (.inl iT)) (raw y 5)) y
    have d5 := raw_diff 5 y
    have q5 := hp.2.2.2.2.2.1
    have n5 := q5.ne'
    try simp only [D2GDR2S0, zero_mul, mul_zero, add_zero, zero_add, sub_zero]
    ddq
  · have hp := pos y hy
    have h := c_D2GDR2S0 (hl y u ((.inl iT))) (hl y u ((.inl iP))) (hl y u ((.inl (.inl 0)))) (hl y u ((.inl (.inl
        1)))) (hl y u ((.inl (.inl 2)))) (hl y u ((.inr 0))) (raw_line5 y u) (by simpa only
        [zero_mul, add_zero] using hp.2.2.2.2.2.1)
    try simp only [zero_mul, add_zero] at h
    refine h.congr_deriv ?_
    rw [sum_var]; simp only [Fin.sum_univ_one, Fin.sum_univ_three]; rfl

lemma gr_d2gdrdt_2 (y : Var 3 1 → ℝ) (hy : Dom y) :
    Gr (fun y => (tables (raw y) y).d2gdrdt 2) y ((tables (raw y) y).at3 (.inl (.inl 2)) (.inl iT)) := by
  refine Gr.of_lines ?_ fun u => ?_
  · have hp := pos y hy
    change DifferentiableAt ℝ (fun y => D2GDR2DT (raw y 0) (raw y 1) (raw y 2) (raw y 5)) y
    have d0 := raw_diff 0 y
    have q0 := hp.1
    have n0 := q0.ne'
    have d1 := raw_diff 1 y
    have q1 := hp.2.1
    have n1 := q1.ne'
    have d2 := raw_diff 2 y
    have q2 := hp.2.2.1
    have n2 := q2.ne'
    have d5 := raw_diff 5 y
    have q5 := hp.2.2.2.2.2.1
    have n5 := q5.ne'
    try simp only [D2GDR2DT, zero_mul, mul_zero, add_zero, zero_add, sub_zero]
    ddq
  · have hp := pos y hy
    have h := c_D2GDR2DT (hl y u ((.inl iT))) (hl y u ((.inl iP))) (hl y u ((.inl (.inl 0)))) (hl y u ((.inl (.inl
        1)))) (hl y u ((.inl (.inl 2)))) (hl y u ((.inr 0))) (raw_line0 y u) (by simpa only
        [zero_mul, add_zero] using hp.1) (raw_line1 y u) (by simpa only [zero_mul, add_zero] using
        hp.2.1) (raw_line2 y u) (by simpa only [zero_mul, add_zero] using hp.2.2.1) (raw_line5 y
        u) (by simpa only [zero_mul, add_zero] using hp.2.2.2.2.2.1)
    try simp only [zero_mul, add_zero] at h
    refine h.congr_deriv ?_
    rw [sum_var]; simp only [Fin.sum_univ_one, Fin.sum_univ_three]; rfl

lemma gr_d2gdrdp_2 (y : Var 3 1 → ℝ) (hy : Dom y) :
    Gr (fun y => (tables (raw y) y).d2gdrdp 2) y ((tables (raw y) y).at3 (.inl (.inl 2)) (.inl iP)) := by
  refine Gr.of_lines ?_ fun u => ?_
  · have hp := pos y hy
    change DifferentiableAt ℝ (fun y => D2GDR2DP) y
    try simp only [D2GDR2DP, zero_mul, mul_zero, add_zero, zero_add, sub_zero]
    ddq
  · have hp := pos y hy
    have h := c_D2GDR2DP (hl y u ((.inl iT))) (hl y u ((.inl iP))) (hl y u ((.inl (.inl 0)))) (hl y u ((.inl (.inl
        1)))) (hl y u ((.inl (.inl 2)))) (hl y u ((.inr 0)))
    try simp only [zero_mul, add_zero] at h
    refine h.congr_deriv ?_
    rw [sum_var]; simp only [Fin.sum_univ_one, Fin.sum_univ_three]; rfl

lemma gr_d2gds2_0_0 (y : Var 3 1 → ℝ) (hy : Dom y) :
    Gr (fun y => (tables (raw y) y).d2gds2 0 0) y ((tables (raw y) y).at3 (.inr 0) (.inr 0)) := by
  refine Gr.of_lines ?_ fun u => ?_
  · have hp := pos y hy
    change DifferentiableAt ℝ (fun y => D2GDS0S0 (y (.inl iT)) (raw y 4) (raw y 5) (raw y 6) (raw y 7)) y
    have d4 := raw_diff 4 y
    have q4 := hp.2.2.2.2.1
    have n4 := q4.ne'
    have d5 := raw_diff 5 y
    have q5 := hp.2.2.2.2.2.1
    have n5 := q5.ne'
    have d6 := raw_diff 6 y
    have q6 := hp.2.2.2.2.2.2.1
    have n6 := q6.ne'
    have d7 := raw_diff 7 y
    have q7 := hp.2.2.2.2.2.2.2
    have n7 := q7.ne'
    try simp only [D2GDS0S0, zero_mul, mul_zero, add_zero, zero_add, sub_zero]
    ddq
  · have hp := pos y hy
    have h := c_D2GDS0S0 (hl y u ((.inl iT))) (hl y u ((.inl iP))) (hl y u ((.inl (.inl 0)))) (hl y u ((.inl (.inl
        1)))) (hl y u ((.inl (.inl 2)))) (hl y u ((.inr 0))) (raw_line4 y u) (by simpa only
        [zero_mul, add_zero] using hp.2.2.2.2.1) (raw_line5 y u) (by simpa only [zero_mul,
        add_zero] using hp.2.2.2.2.2.1) (raw_line6 y u) (by simpa only [zero_mul, add_zero] using
        hp.2.2.2.2.2.2.1) (raw_line7 y u) (by simpa only [zero_mul, add_zero] using
        hp.2.2.2.2.2.2.2)
    try simp only [zero_mul, add_zero] at h
    refine h.congr_deriv ?_
    rw [sum_var]; simp only [Fin.sum_univ_one, Fin.sum_univ_three]; rfl

lemma gr_d2gdsdt_0 (y : Var 3 1 → ℝ) (hy : Dom y) :
    Gr (fun y => (tables (raw y) y).d2gdsdt 0) y ((tables (raw y) y).at3 (.inr 0) (.inl iT)) := by
  refine Gr.of_lines ?_ fun u => ?_
  · have hp := pos y hy
    change DifferentiableAt ℝ (fun y => D2GDS0DT (raw y 4) (raw y 5) (raw y 6) (raw y 7)) y
    have d4 := raw_diff 4 y
    have q4 := hp.2.2.2.2.1
    have n4 := q4.ne'
    have d5 := raw_diff 5 y
    have q5 := hp.2.2.2.2.2.1
    have n5 := q5.ne'
    have d6 := raw_diff 6 y
    have q6 := hp.2.2.2.2.2.2.1
    have n6 := q6.ne'
    have d7 := raw_diff 7 y
    have q7 := hp.2.2.2.2.2.2.2
    have n7 := q7.ne'
    try simp only [D2GDS0DT, zero_mul, mul_zero, add_zero, zero_add, sub_zero]
    ddq
  · have hp := pos y hy
    have h := c_D2GDS0DT (hl y u ((.inl iT))) (hl y u ((.inl iP))) (hl y u ((.inl (.inl 0)))) (hl y u ((.inl (.inl
        1)))) (hl y u ((.inl (.inl 2)))) (hl y u ((.inr 0))) (raw_line4 y u) (by simpa only
        [zero_mul, add_zero] using hp.2.2.2.2.1) (raw_line5 y u) (by simpa only [zero_mul,
        add_zero] using hp.2.2.2.2.2.1) (raw_line6 y u) (by simpa only [zero_mul, add_zero] using
        hp.2.2.2.2.2.2.1) (raw_line7 y u) (by simpa only [zero_mul, add_zero] using
        hp.2.2.2.2.2.2.2)
    try simp only [zero_mul, add_zero] at h
    refine h.congr_deriv ?_
    rw [sum_var]; simp only [Fin.sum_univ_one, Fin.sum_univ_three]; rfl

lemma gr_d2gdsdp_0 (y : Var 3 1 → ℝ) (hy : Dom y) :
    Gr (fun y => (tables (raw y) y).d2gdsdp 0) y ((tables (raw y) y).at3 (.inr 0) (.inl iP)) := by
  refine Gr.of_lines ?_ fun u => ?_
  · have hp := pos y hy
    change DifferentiableAt ℝ (fun y => D2GDS0DP) y
    try simp only [D2GDS0DP, zero_mul, mul_zero, add_zero, zero_add, sub_zero]
    ddq
  · have hp := pos y hy
    have h := c_D2GDS0DP (hl y u ((.inl iT))) (hl y u ((.inl iP))) (hl y u ((.inl (.inl 0)))) (hl y u ((.inl (.inl
        1)))) (hl y u ((.inl (.inl 2)))) (hl y u ((.inr 0)))
    try simp only [zero_mul, add_zero] at h
    refine h.congr_deriv ?_
    rw [sum_var]; simp only [Fin.sum_univ_one, Fin.sum_univ_three]; rfl

lemma gr_d2gdt2 (y : Var 3 1 → ℝ) (hy : Dom y) :
    Gr (fun y => (tables (raw y) y).d2gdt2) y ((tables (raw y) y).at3 (.inl iT) (.inl iT)) := by
  refine Gr.of_lines ?_ fun u => ?_
  · have hp := pos y hy
    change DifferentiableAt ℝ (fun y => D2GDT2) y
    try simp only [D2GDT2, zero_mul, mul_zero, add_zero, zero_add, sub_zero]
    ddq
  · have hp := pos y hy
    have h := c_D2GDT2 (hl y u ((.inl iT))) (hl y u ((.inl iP))) (hl y u ((.inl (.inl 0)))) (hl y u ((.inl (.inl
        1)))) (hl y u ((.inl (.inl 2)))) (hl y u ((.inr 0)))
    try simp only [zero_mul, add_zero] at h
    refine h.congr_deriv ?_
    rw [sum_var]; simp only [Fin.sum_univ_one, Fin.sum_univ_three]; rfl

lemma gr_d2gdtdp (y : Var 3 1 → ℝ) (hy : Dom y) :
    Gr (fun y => (tables (raw y) y).d2gdtdp) y ((tables (raw y) y).at3 (.inl iT) (.inl iP)) := by
  refine Gr.of_lines ?_ fun u => ?_
  · have hp := pos y hy
    change DifferentiableAt ℝ (fun y => D2GDTDP) y
    try simp only [D2GDTDP, zero_mul, mul_zero, add_zero, zero_add, sub_zero]
    ddq
  · have hp := pos y hy
    have h := c_D2GDTDP (hl y u ((.inl iT))) (hl y u ((.inl iP))) (hl y u ((.inl (.inl 0)))) (hl y u ((.inl (.inl
        1)))) (hl y u ((.inl (.inl 2)))) (hl y u ((.inr 0)))
    try simp only [zero_mul, add_zero] at h
    refine h.congr_deriv ?_
    rw [sum_var]; simp only [Fin.sum_univ_one, Fin.sum_univ_three]; rfl

lemma gr_d2gdp2 (y : Var 3 1 → ℝ) (hy : Dom y) :
    Gr (fun y => (tables (raw y) y).d2gdp2) y ((tables (raw y) y).at3 (.inl iP) (.inl iP)) := by
  refine Gr.of_lines ?_ fun u => ?_
  · have hp := pos y hy
    change DifferentiableAt ℝ (fun y => D2GDP2) y
    try simp only [D2GDP2, zero_mul, mul_zero, add_zero, zero_add, sub_zero]
    ddq
  · have hp := pos y hy
    have h := c_D2GDP2 (hl y u ((.inl iT))) (hl y u ((.inl iP))) (hl y u ((.inl (.inl 0)))) (hl y u ((.inl (.inl
        1)))) (hl y u ((.inl (.inl 2)))) (hl y u ((.inr 0)))
    try simp only [zero_mul, add_zero] at h
    refine h.congr_deriv ?_
    rw [sum_var]; simp only [Fin.sum_univ_one, Fin.sum_univ_three]; rfl

lemma symm (x : Fin 8 → ℝ) (y : Var 3 1 → ℝ) : (tables x y).Symm := by
  constructor
  · intro i j; fin_cases i <;> fin_cases j <;> rfl
  · intro i j; fin_cases i <;> fin_cases j <;> rfl
  · intro i j k; fin_cases i <;> fin_cases j <;> fin_cases k <;> exact ⟨rfl, rfl⟩
  · intro i j k; fin_cases i <;> fin_cases j <;> fin_cases k <;> rfl
  · intro i j; fin_cases i <;> fin_cases j <;> rfl
  · intro i j; fin_cases i <;> fin_cases j <;> rfl
  · intro i j k; fin_cases i <;> fin_cases j <;> fin_cases k <;> rfl
  · intro i j k; fin_cases i <;> fin_cases j <;> fin_cases k <;> exact ⟨rfl, rfl⟩
  · intro i j; fin_cases i <;> fin_cases j <;> rfl
  · intro i j; fin_cases i <;> fin_cases j <;> rfl

lemma ok_raw : (jets fun y => tables (raw y) y).Ok Dom := by
  refine jets_ok (fun y _ => symm (raw y) y) gr_g ?_ gr_dgdt gr_dgdp ?_ ?_ ?_ ?_ ?_ ?_ ?_ ?_ gr_d2gdt2 gr_d2gdtdp gr_d2gdp2
  · intro y hy i
    fin_cases i
    · exact gr_dgdr_0 y hy
    · exact gr_dgdr_1 y hy
    · exact gr_dgdr_2 y hy
  · intro y hy i
    fin_cases i
    · exact gr_dgds_0 y hy
  · intro y hy i j
    fin_cases i <;> fin_cases j
    · exact gr_d2gdr2_0_0 y hy
    · exact gr_d2gdr2_0_1 y hy
    · exact gr_d2gdr2_0_2 y hy
    · exact (gr_d2gdr2_0_1 y hy).congr_d (funext fun k => ((symm (raw y) y).at3 _ _ k).1)
    · exact gr_d2gdr2_1_1 y hy
    · exact gr_d2gdr2_1_2 y hy
    · exact (gr_d2gdr2_0_2 y hy).congr_d (funext fun k => ((symm (raw y) y).at3 _ _ k).1)
    · exact (gr_d2gdr2_1_2 y hy).congr_d (funext fun k => ((symm (raw y) y).at3 _ _ k).1)
    · exact gr_d2gdr2_2_2 y hy
  · intro y hy i j
    fin_cases i <;> fin_cases j
    · exact gr_d2gdrds_0_0 y hy
    · exact gr_d2gdrds_1_0 y hy
    · exact gr_d2gdrds_2_0 y hy
  · intro y hy i
    fin_cases i
    · exact gr_d2gdrdt_0 y hy
    · exact gr_d2gdrdt_1 y hy
    · exact gr_d2gdrdt_2 y hy
  · intro y hy i
    fin_cases i
    · exact gr_d2gdrdp_0 y hy
    · exact gr_d2gdrdp_1 y hy
    · exact gr_d2gdrdp_2 y hy
  · intro y hy i j
    fin_cases i <;> fin_cases j
    · exact gr_d2gds2_0_0 y hy
  · intro y hy i
    fin_cases i
    · exact gr_d2gdsdt_0 y hy
  · intro y hy i
    fin_cases i
    · exact gr_d2gdsdp_0 y hy

lemma site_eq (y : Var 3 1 → ℝ) (hy : Dom y) : site y = raw y := by
  obtain ⟨h0, h1, h2, h3, h4, h5, h6, h7⟩ := hy
  funext k; fin_cases k
  · exact keep_eq h0.1 h0.2
  · exact keep_eq h1.1 h1.2
  · exact keep_eq h2.1 h2.2
  · exact keep_eq h3.1 h3.2
  · exact keep_eq h4.1 h4.2
  · exact keep_eq h5.1 h5.2
  · exact keep_eq h6.1 h6.2
  · exact keep_eq h7.1 h7.2

lemma dom_open : IsOpen {y | Dom y} := by
  have hc : ∀ k, Continuous fun y => raw y k := fun k =>
    continuous_iff_continuousAt.2 fun y => (raw_diff k y).continuousAt
  exact ((isOpen_lt continuous_const (hc 0)).inter (isOpen_lt (hc 0) continuous_const)).inter (((isOpen_lt
    continuous_const (hc 1)).inter (isOpen_lt (hc 1) continuous_const)).inter (((isOpen_lt continuous_const (hc
    2)).inter (isOpen_lt (hc 2) continuous_const)).inter (((isOpen_lt continuous_const (hc 3)).inter (isOpen_lt
    (hc 3) continuous_const)).inter (((isOpen_lt continuous_const (hc 4)).inter (isOpen_lt (hc 4)
    continuous_const)).inter (((isOpen_lt continuous_const (hc 5)).inter (isOpen_lt (hc 5)
    continuous_const)).inter (((isOpen_lt continuous_const (hc 6)).inter (isOpen_lt (hc 6)
    continuous_const)).inter ((isOpen_lt continuous_const (hc 7)).inter (isOpen_lt (hc 7)
    continuous_const))))))))

/-- The arrays of melilite.c are the derivatives of its Gibbs energy to third order. -/
theorem ok : (jets macros).Ok Dom :=
  ok_congr dom_open (fun y hy => by unfold macros; rw [site_eq y hy]) ok_raw

lemma entropy_eq (y : Var 3 1 → ℝ) : (jets macros).g1 y (.inl iT) = -(macros y).s := by
  change DGDT (site y 0) (site y 1) (site y 2) (site y 3) (site y 4) (site y 5) (site y 6) (site y 7) = -(S (site y 0) (site y 1) (site y 2) (site y 3) (site y 4) (site y 5) (site y 6) (site y 7))
  simp only [DGDT]

end Melilite

end

end Verif.Thermo.Ordering
