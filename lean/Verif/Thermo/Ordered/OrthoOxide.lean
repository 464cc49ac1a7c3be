import Verif.Thermo.OrderLogs

/-!
Ortho-oxide (pseudobrookite). Generated by /verif/tools/gen/genord.py from the macros of /repo/sources/ortho-oxide.c: one definition per macro, with the
macros it mentions as definitions (the generator checks that this has the value of C's textual substitution).
-/

namespace Verif.Thermo.Ordering

open Magma.Thermo.Mixing (R)

noncomputable section

set_option linter.unusedVariables false
set_option linter.unnecessarySeqFocus false
set_option linter.unusedSimpArgs false
set_option linter.unusedTactic false
set_option linter.unreachableTactic false

namespace OrthoOxide

/-- `S`, ortho-oxide.c 1137-1140. -/
def S (xfe2M1 xmg2M1 xti4M1 xfe3M1 xfe2M2 xmg2M2 xti4M2 xfe3M2 : ℝ) : ℝ :=
  (-R) * (xfe2M1 * Real.log xfe2M1 + xmg2M1 * Real.log xmg2M1 + xti4M1 * Real.log xti4M1 + xfe3M1 * Real.log
    xfe3M1 + 2 * xfe2M2 * Real.log xfe2M2 + 2 * xmg2M2 * Real.log xmg2M2 + 2 * xti4M2 * Real.log xti4M2 + 2 *
    xfe3M2 * Real.log xfe3M2)

/-- `G11P`, ortho-oxide.c 64. -/
def G11P : ℝ :=
  22000

/-- `W11P`, ortho-oxide.c 67. -/
def W11P : ℝ :=
  6000

/-- `G0`, ortho-oxide.c 83. -/
def G0 : ℝ :=
  G11P / 2 + W11P / 4

/-- `G22P`, ortho-oxide.c 65. -/
def G22P : ℝ :=
  22000

/-- `W12`, ortho-oxide.c 68. -/
def W12 : ℝ :=
  26000

/-- `W12P`, ortho-oxide.c 69. -/
def W12P : ℝ :=
  26000

/-- `W1P2`, ortho-oxide.c 72. -/
def W1P2 : ℝ :=
  26000

/-- `W1P2P`, ortho-oxide.c 73. -/
def W1P2P : ℝ :=
  26000

/-- `GX2`, ortho-oxide.c 84. -/
def GX2 : ℝ :=
  (G22P - G11P - W11P) / 2 + (W12 + W12P + W1P2 + W1P2P) / 4

/-- `G33P`, ortho-oxide.c 66. -/
def G33P : ℝ :=
  22000

/-- `W13`, ortho-oxide.c 70. -/
def W13 : ℝ :=
  45000

/-- `W13P`, ortho-oxide.c 71. -/
def W13P : ℝ :=
  45000

/-- `W1P3`, ortho-oxide.c 74. -/
def W1P3 : ℝ :=
  45000

/-- `W1P3P`, ortho-oxide.c 75. -/
def W1P3P : ℝ :=
  45000

/-- `GX3`, ortho-oxide.c 85. -/
def GX3 : ℝ :=
  (G33P - G11P - W11P) / 2 + (W13 + W13P + W1P3 + W1P3P) / 4

/-- `GS1`, ortho-oxide.c 86. -/
def GS1 : ℝ :=
  (-G11P) / 2

/-- `GS2`, ortho-oxide.c 87. -/
def GS2 : ℝ :=
  (-G22P) / 2 + (W12 - W12P + W1P2 - W1P2P) / 4

/-- `GS3`, ortho-oxide.c 88. -/
def GS3 : ℝ :=
  (-G33P) / 2 + (W13 - W13P + W1P3 - W1P3P) / 4

/-- `W22P`, ortho-oxide.c 76. -/
def W22P : ℝ :=
  6000

/-- `GX2X2`, ortho-oxide.c 89. -/
def GX2X2 : ℝ :=
  (W11P - W12 - W12P - W1P2 - W1P2P + W22P) / 4

/-- `W23`, ortho-oxide.c 77. -/
def W23 : ℝ :=
  8400

/-- `W23P`, ortho-oxide.c 78. -/
def W23P : ℝ :=
  8400

/-- `W2P3`, ortho-oxide.c 79. -/
def W2P3 : ℝ :=
  8400

/-- `W2P3P`, ortho-oxide.c 80. -/
def W2P3P : ℝ :=
  8400

/-- `GX2X3`, ortho-oxide.c 90-91. -/
def GX2X3 : ℝ :=
  W11P / 2 + (-W12 - W12P - W13 - W13P - W1P2 - W1P2P - W1P3 - W1P3P + W23 + W23P + W2P3 + W2P3P) / 4

/-- `GX2S1`, ortho-oxide.c 92. -/
def GX2S1 : ℝ :=
  (W12 + W12P - W1P2 - W1P2P) / 4

/-- `GX2S2`, ortho-oxide.c 93. -/
def GX2S2 : ℝ :=
  (-W12 + W12P - W1P2 + W1P2P) / 4

/-- `GX2S3`, ortho-oxide.c 94. -/
def GX2S3 : ℝ :=
  (-W13 + W13P - W1P3 + W1P3P + W23 - W23P + W2P3 - W2P3P) / 4

/-- `W33P`, ortho-oxide.c 81. -/
def W33P : ℝ :=
  6000

/-- `GX3X3`, ortho-oxide.c 95. -/
def GX3X3 : ℝ :=
  (W11P - W13 - W13P - W1P3 - W1P3P + W33P) / 4

/-- `GX3S1`, ortho-oxide.c 96. -/
def GX3S1 : ℝ :=
  (W13 + W13P - W1P3 - W1P3P) / 4

/-- `GX3S2`, ortho-oxide.c 97. -/
def GX3S2 : ℝ :=
  (-W12 + W12P - W1P2 + W1P2P + W23 + W23P - W2P3 - W2P3P) / 4

/-- `GX3S3`, ortho-oxide.c 98. -/
def GX3S3 : ℝ :=
  (-W13 + W13P - W1P3 + W1P3P) / 4

/-- `GS1S1`, ortho-oxide.c 99. -/
def GS1S1 : ℝ :=
  (-W11P) / 4

/-- `GS1S2`, ortho-oxide.c 100. -/
def GS1S2 : ℝ :=
  (W12 - W12P - W1P2 + W1P2P) / 4

/-- `GS1S3`, ortho-oxide.c 101. -/
def GS1S3 : ℝ :=
  (W13 - W13P - W1P3 + W1P3P) / 4

/-- `GS2S2`, ortho-oxide.c 102. -/
def GS2S2 : ℝ :=
  (-W22P) / 4

/-- `GS2S3`, ortho-oxide.c 103. -/
def GS2S3 : ℝ :=
  (W23 - W23P - W2P3 + W2P3P) / 4

/-- `GS3S3`, ortho-oxide.c 104. -/
def GS3S3 : ℝ :=
  (-W33P) / 4

/-- `H`, ortho-oxide.c 1141-1146. -/
def H (r0 r1 s0 s1 s2 : ℝ) : ℝ :=
  G0 + GX2 * r0 + GX3 * r1 + GS1 * s0 + GS2 * s1 + GS3 * s2 + GX2X2 * r0 * r0 + GX2X3 * r0 * r1 + GX2S1 * r0 *
    s0 + GX2S2 * r0 * s1 + GX2S3 * r0 * s2 + GX3X3 * r1 * r1 + GX3S1 * r1 * s0 + GX3S2 * r1 * s1 + GX3S3 * r1 *
    s2 + GS1S1 * s0 * s0 + GS1S2 * s0 * s1 + GS1S3 * s0 * s2 + GS2S2 * s1 * s1 + GS2S3 * s1 * s2 + GS3S3 * s2 *
    s2

/-- `G`, ortho-oxide.c 1147. -/
def G (t r0 r1 s0 s1 s2 xfe2M1 xmg2M1 xti4M1 xfe3M1 xfe2M2 xmg2M2 xti4M2 xfe3M2 : ℝ) : ℝ :=
  H r0 r1 s0 s1 s2 - t * (S xfe2M1 xmg2M1 xti4M1 xfe3M1 xfe2M2 xmg2M2 xti4M2 xfe3M2)

/-- `DGDR0`, ortho-oxide.c 1151-1153. -/
def DGDR0 (t r0 r1 s0 s1 s2 xfe2M1 xfe3M1 xfe2M2 xti4M2 xfe3M2 : ℝ) : ℝ :=
  R * t * ((1 / 2) * Real.log xfe2M1 - (1 / 2) * Real.log xfe3M1 + (1 / 2) * Real.log xfe2M2 + Real.log xti4M2
    - (3 / 2) * Real.log xfe3M2) + GX2 + 2 * GX2X2 * r0 + GX2X3 * r1 + GX2S1 * s0 + GX2S2 * s1 + GX2S3 * s2

/-- `DGDR1`, ortho-oxide.c 1154-1156. -/
def DGDR1 (t r0 r1 s0 s1 s2 xmg2M1 xfe3M1 xmg2M2 xti4M2 xfe3M2 : ℝ) : ℝ :=
  R * t * ((1 / 2) * Real.log xmg2M1 - (1 / 2) * Real.log xfe3M1 + (1 / 2) * Real.log xmg2M2 + Real.log xti4M2
    - (3 / 2) * Real.log xfe3M2) + GX3 + GX2X3 * r0 + 2 * GX3X3 * r1 + GX3S1 * s0 + GX3S2 * s1 + GX3S3 * s2

/-- `DGDS0`, ortho-oxide.c 1157-1159. -/
def DGDS0 (t r0 r1 s0 s1 s2 xti4M1 xfe3M1 xti4M2 xfe3M2 : ℝ) : ℝ :=
  R * t * ((-(1 / 2)) * Real.log xti4M1 + (1 / 2) * Real.log xfe3M1 + (1 / 2) * Real.log xti4M2 - (1 / 2) *
    Real.log xfe3M2) + GS1 + GX2S1 * r0 + GX3S1 * r1 + 2 * GS1S1 * s0 + GS1S2 * s1 + GS1S3 * s2

/-- `DGDS1`, ortho-oxide.c 1160-1162. -/
def DGDS1 (t r0 r1 s0 s1 s2 xfe2M1 xti4M1 xfe2M2 xti4M2 : ℝ) : ℝ :=
  R * t * ((1 / 2) * Real.log xfe2M1 - (1 / 2) * Real.log xti4M1 - (1 / 2) * Real.log xfe2M2 + (1 / 2) *
    Real.log xti4M2) + GS2 + GX2S2 * r0 + GX3S2 * r1 + GS1S2 * s0 + 2 * GS2S2 * s1 + GS2S3 * s2

/-- `DGDS2`, ortho-oxide.c 1163-1165. -/
def DGDS2 (t r0 r1 s0 s1 s2 xmg2M1 xti4M1 xmg2M2 xti4M2 : ℝ) : ℝ :=
  R * t * ((1 / 2) * Real.log xmg2M1 - (1 / 2) * Real.log xti4M1 - (1 / 2) * Real.log xmg2M2 + (1 / 2) *
    Real.log xti4M2) + GS3 + GX2S3 * r0 + GX3S3 * r1 + GS1S3 * s0 + GS2S3 * s1 + 2 * GS3S3 * s2

/-- `DGDT`, ortho-oxide.c 1166. -/
def DGDT (xfe2M1 xmg2M1 xti4M1 xfe3M1 xfe2M2 xmg2M2 xti4M2 xfe3M2 : ℝ) : ℝ :=
  -(S xfe2M1 xmg2M1 xti4M1 xfe3M1 xfe2M2 xmg2M2 xti4M2 xfe3M2)

/-- `DGDP`, ortho-oxide.c 1167. -/
def DGDP : ℝ :=
  0

/-- `D2GDR0R0`, ortho-oxide.c 1171-1172. -/
def D2GDR0R0 (t xfe2M1 xfe3M1 xfe2M2 xti4M2 xfe3M2 : ℝ) : ℝ :=
  R * t * ((1 / 4) / xfe2M1 + (1 / 4) / xfe3M1 + (1 / 8) / xfe2M2 + (1 / 2) / xti4M2 + (9 / 8) / xfe3M2) + 2 *
    GX2X2

/-- `D2GDR0R1`, ortho-oxide.c 1173. -/
def D2GDR0R1 (t xfe3M1 xti4M2 xfe3M2 : ℝ) : ℝ :=
  R * t * ((1 / 4) / xfe3M1 + (1 / 2) / xti4M2 + (9 / 8) / xfe3M2) + GX2X3

/-- `D2GDR0S0`, ortho-oxide.c 1174. -/
def D2GDR0S0 (t xfe3M1 xti4M2 xfe3M2 : ℝ) : ℝ :=
  R * t * ((-(1 / 4)) / xfe3M1 + (1 / 4) / xti4M2 + (3 / 8) / xfe3M2) + GX2S1

/-- `D2GDR0S1`, ortho-oxide.c 1175. -/
def D2GDR0S1 (t xfe2M1 xfe2M2 xti4M2 : ℝ) : ℝ :=
  R * t * ((1 / 4) / xfe2M1 - (1 / 8) / xfe2M2 + (1 / 4) / xti4M2) + GX2S2

/-- `D2GDR0S2`, ortho-oxide.c 1176. -/
def D2GDR0S2 (t xti4M2 : ℝ) : ℝ :=
  R * t * ((1 / 4) / xti4M2) + GX2S3

/-- `D2GDR0DT`, ortho-oxide.c 1177-1178. -/
def D2GDR0DT (xfe2M1 xfe3M1 xfe2M2 xti4M2 xfe3M2 : ℝ) : ℝ :=
  R * ((1 / 2) * Real.log xfe2M1 - (1 / 2) * Real.log xfe3M1 + (1 / 2) * Real.log xfe2M2 + Real.log xti4M2 -
    (3 / 2) * Real.log xfe3M2)

/-- `D2GDR0DP`, ortho-oxide.c 1179. -/
def D2GDR0DP : ℝ :=
  0

/-- `D2GDR1R1`, ortho-oxide.c 1181-1182. -/
def D2GDR1R1 (t xmg2M1 xfe3M1 xmg2M2 xti4M2 xfe3M2 : ℝ) : ℝ :=
  R * t * ((1 / 4) / xmg2M1 + (1 / 4) / xfe3M1 + (1 / 8) / xmg2M2 + (1 / 2) / xti4M2 + (9 / 8) / xfe3M2) + 2 *
    GX3X3

/-- `D2GDR1S0`, ortho-oxide.c 1183. -/
def D2GDR1S0 (t xfe3M1 xti4M2 xfe3M2 : ℝ) : ℝ :=
  R * t * ((-(1 / 4)) / xfe3M1 + (1 / 4) / xti4M2 + (3 / 8) / xfe3M2) + GX3S1

/-- `D2GDR1S1`, ortho-oxide.c 1184. -/
def D2GDR1S1 (t xti4M2 : ℝ) : ℝ :=
  R * t * ((1 / 4) / xti4M2) + GX3S2

/-- `D2GDR1S2`, ortho-oxide.c 1185. -/
def D2GDR1S2 (t xmg2M1 xmg2M2 xti4M2 : ℝ) : ℝ :=
  R * t * ((1 / 4) / xmg2M1 - (1 / 8) / xmg2M2 + (1 / 4) / xti4M2) + GX3S3

/-- `D2GDR1DT`, ortho-oxide.c 1186-1187. -/
def D2GDR1DT (xmg2M1 xfe3M1 xmg2M2 xti4M2 xfe3M2 : ℝ) : ℝ :=
  R * ((1 / 2) * Real.log xmg2M1 - (1 / 2) * Real.log xfe3M1 + (1 / 2) * Real.log xmg2M2 + Real.log xti4M2 -
    (3 / 2) * Real.log xfe3M2)

/-- `D2GDR1DP`, ortho-oxide.c 1188. -/
def D2GDR1DP : ℝ :=
  0

/-- `D2GDS0S0`, ortho-oxide.c 1190-1191. -/
def D2GDS0S0 (t xti4M1 xfe3M1 xti4M2 xfe3M2 : ℝ) : ℝ :=
  R * t * ((1 / 4) / xti4M1 + (1 / 4) / xfe3M1 + (1 / 8) / xti4M2 + (1 / 8) / xfe3M2) + 2 * GS1S1

/-- `D2GDS0S1`, ortho-oxide.c 1192. -/
def D2GDS0S1 (t xti4M1 xti4M2 : ℝ) : ℝ :=
  R * t * ((1 / 4) / xti4M1 + (1 / 8) / xti4M2) + GS1S2

/-- `D2GDS0S2`, ortho-oxide.c 1193. -/
def D2GDS0S2 (t xti4M1 xti4M2 : ℝ) : ℝ :=
  R * t * ((1 / 4) / xti4M1 + (1 / 8) / xti4M2) + GS1S3

/-- `D2GDS0DT`, ortho-oxide.c 1194-1195. -/
def D2GDS0DT (xti4M1 xfe3M1 xti4M2 xfe3M2 : ℝ) : ℝ :=
  R * ((-(1 / 2)) * Real.log xti4M1 + (1 / 2) * Real.log xfe3M1 + (1 / 2) * Real.log xti4M2 - (1 / 2) *
    Real.log xfe3M2)

/-- `D2GDS0DP`, ortho-oxide.c 1196. -/
def D2GDS0DP : ℝ :=
  0

/-- `D2GDS1S1`, ortho-oxide.c 1198-1199. -/
def D2GDS1S1 (t xfe2M1 xti4M1 xfe2M2 xti4M2 : ℝ) : ℝ :=
  R * t * ((1 / 4) / xfe2M1 + (1 / 4) / xti4M1 + (1 / 8) / xfe2M2 + (1 / 8) / xti4M2) + 2 * GS2S2

/-- `D2GDS1S2`, ortho-oxide.c 1200. -/
def D2GDS1S2 (t xti4M1 xti4M2 : ℝ) : ℝ :=
  R * t * ((1 / 4) / xti4M1 + (1 / 8) / xti4M2) + GS2S3

/-- `D2GDS1DT`, ortho-oxide.c 1201-1202. -/
def D2GDS1DT (xfe2M1 xti4M1 xfe2M2 xti4M2 : ℝ) : ℝ :=
  R * ((1 / 2) * Real.log xfe2M1 - (1 / 2) * Real.log xti4M1 - (1 / 2) * Real.log xfe2M2 + (1 / 2) * Real.log
    xti4M2)

/-- `D2GDS1DP`, ortho-oxide.c 1203. -/
def D2GDS1DP : ℝ :=
  0

/-- `D2GDS2S2`, ortho-oxide.c 1205-1206. -/
def D2GDS2S2 (t xmg2M1 xti4M1 xmg2M2 xti4M2 : ℝ) : ℝ :=
  R * t * ((1 / 4) / xmg2M1 + (1 / 4) / xti4M1 + (1 / 8) / xmg2M2 + (1 / 8) / xti4M2) + 2 * GS3S3

/-- `D2GDS2DT`, ortho-oxide.c 1207-1208. -/
def D2GDS2DT (xmg2M1 xti4M1 xmg2M2 xti4M2 : ℝ) : ℝ :=
  R * ((1 / 2) * Real.log xmg2M1 - (1 / 2) * Real.log xti4M1 - (1 / 2) * Real.log xmg2M2 + (1 / 2) * Real.log
    xti4M2)

/-- `D2GDS2DP`, ortho-oxide.c 1209. -/
def D2GDS2DP : ℝ :=
  0

/-- `D2GDT2`, ortho-oxide.c 1211. -/
def D2GDT2 : ℝ :=
  0

/-- `D2GDTDP`, ortho-oxide.c 1212. -/
def D2GDTDP : ℝ :=
  0

/-- `D2GDP2`, ortho-oxide.c 1213. -/
def D2GDP2 : ℝ :=
  0

/-- `D3GDR0R0R0`, ortho-oxide.c 1217-1218. -/
def D3GDR0R0R0 (t xfe2M1 xfe3M1 xfe2M2 xti4M2 xfe3M2 : ℝ) : ℝ :=
  R * t * ((-(1 / 8)) / xfe2M1 ^ 2 + (1 / 8) / xfe3M1 ^ 2 - (1 / 32) / xfe2M2 ^ 2 - (1 / 4) / xti4M2 ^ 2 + (27
    / 32) / xfe3M2 ^ 2)

/-- `D3GDR0R0R1`, ortho-oxide.c 1219. -/
def D3GDR0R0R1 (t xfe3M1 xti4M2 xfe3M2 : ℝ) : ℝ :=
  R * t * ((1 / 8) / xfe3M1 ^ 2 - (1 / 4) / xti4M2 ^ 2 + (27 / 32) / xfe3M2 ^ 2)

/-- `D3GDR0R0S0`, ortho-oxide.c 1220. -/
def D3GDR0R0S0 (t xfe3M1 xti4M2 xfe3M2 : ℝ) : ℝ :=
  R * t * ((-(1 / 8)) / xfe3M1 ^ 2 - (1 / 8) / xti4M2 ^ 2 + (9 / 32) / xfe3M2 ^ 2)

/-- `D3GDR0R0S1`, ortho-oxide.c 1221. -/
def D3GDR0R0S1 (t xfe2M1 xfe2M2 xti4M2 : ℝ) : ℝ :=
  R * t * ((-(1 / 8)) / xfe2M1 ^ 2 + (1 / 32) / xfe2M2 ^ 2 - (1 / 8) / xti4M2 ^ 2)

/-- `D3GDR0R0S2`, ortho-oxide.c 1222. -/
def D3GDR0R0S2 (t xti4M2 : ℝ) : ℝ :=
  R * t * ((-(1 / 8)) / xti4M2 ^ 2)

/-- `D3GDR0R0DT`, ortho-oxide.c 1223. -/
def D3GDR0R0DT (xfe2M1 xfe3M1 xfe2M2 xti4M2 xfe3M2 : ℝ) : ℝ :=
  R * ((1 / 4) / xfe2M1 + (1 / 4) / xfe3M1 + (1 / 8) / xfe2M2 + (1 / 2) / xti4M2 + (9 / 8) / xfe3M2)

/-- `D3GDR0R0DP`, ortho-oxide.c 1224. -/
def D3GDR0R0DP : ℝ :=
  0

/-- `D3GDR0R1R1`, ortho-oxide.c 1226. -/
def D3GDR0R1R1 (t xfe3M1 xti4M2 xfe3M2 : ℝ) : ℝ :=
  R * t * ((1 / 8) / xfe3M1 ^ 2 - (1 / 4) / xti4M2 ^ 2 + (27 / 32) / xfe3M2 ^ 2)

/-- `D3GDR0R1S0`, ortho-oxide.c 1227. -/
def D3GDR0R1S0 (t xfe3M1 xti4M2 xfe3M2 : ℝ) : ℝ :=
  R * t * ((-(1 / 8)) / xfe3M1 ^ 2 - (1 / 8) / xti4M2 ^ 2 + (9 / 32) / xfe3M2 ^ 2)

/-- `D3GDR0R1S1`, ortho-oxide.c 1228. -/
def D3GDR0R1S1 (t xti4M2 : ℝ) : ℝ :=
  R * t * ((-(1 / 8)) / xti4M2 ^ 2)

/-- `D3GDR0R1S2`, ortho-oxide.c 1229. -/
def D3GDR0R1S2 (t xti4M2 : ℝ) : ℝ :=
  R * t * ((-(1 / 8)) / xti4M2 ^ 2)

/-- `D3GDR0R1DT`, ortho-oxide.c 1230. -/
def D3GDR0R1DT (xfe3M1 xti4M2 xfe3M2 : ℝ) : ℝ :=
  R * ((1 / 4) / xfe3M1 + (1 / 2) / xti4M2 + (9 / 8) / xfe3M2)

/-- `D3GDR0R1DP`, ortho-oxide.c 1231. -/
def D3GDR0R1DP : ℝ :=
  0

/-- `D3GDR0S0S0`, ortho-oxide.c 1233. -/
def D3GDR0S0S0 (t xfe3M1 xti4M2 xfe3M2 : ℝ) : ℝ :=
  R * t * ((1 / 8) / xfe3M1 ^ 2 - (1 / 16) / xti4M2 ^ 2 + (3 / 32) / xfe3M2 ^ 2)

/-- `D3GDR0S0S1`, ortho-oxide.c 1234. -/
def D3GDR0S0S1 (t xti4M2 : ℝ) : ℝ :=
  R * t * ((-(1 / 16)) / xti4M2 ^ 2)

/-- `D3GDR0S0S2`, ortho-oxide.c 1235. -/
def D3GDR0S0S2 (t xti4M2 : ℝ) : ℝ :=
  R * t * ((-(1 / 16)) / xti4M2 ^ 2)

/-- `D3GDR0S0DT`, ortho-oxide.c 1236. -/
def D3GDR0S0DT (xfe3M1 xti4M2 xfe3M2 : ℝ) : ℝ :=
  R * ((-(1 / 4)) / xfe3M1 + (1 / 4) / xti4M2 + (3 / 8) / xfe3M2)

/-- `D3GDR0S0DP`, ortho-oxide.c 1237. -/
def D3GDR0S0DP : ℝ :=
  0

/-- `D3GDR0S1S1`, ortho-oxide.c 1239. -/
def D3GDR0S1S1 (t xfe2M1 xfe2M2 xti4M2 : ℝ) : ℝ :=
  R * t * ((-(1 / 8)) / xfe2M1 ^ 2 - (1 / 32) / xfe2M2 ^ 2 - (1 / 16) / xti4M2 ^ 2)

/-- `D3GDR0S1S2`, ortho-oxide.c 1240. -/
def D3GDR0S1S2 (t xti4M2 : ℝ) : ℝ :=
  R * t * ((-(1 / 16)) / xti4M2 ^ 2)

/-- `D3GDR0S1DT`, ortho-oxide.c 1241. -/
def D3GDR0S1DT (xfe2M1 xfe2M2 xti4M2 : ℝ) : ℝ :=
  R * ((1 / 4) / xfe2M1 - (1 / 8) / xfe2M2 + (1 / 4) / xti4M2)

/-- `D3GDR0S1DP`, ortho-oxide.c 1242. -/
def D3GDR0S1DP : ℝ :=
  0

/-- `D3GDR0S2S2`, ortho-oxide.c 1244. -/
def D3GDR0S2S2 (t xti4M2 : ℝ) : ℝ :=
  R * t * ((-(1 / 16)) / xti4M2 ^ 2)

/-- `D3GDR0S2DT`, ortho-oxide.c 1245. -/
def D3GDR0S2DT (xti4M2 : ℝ) : ℝ :=
  R * ((1 / 4) / xti4M2)

/-- `D3GDR0S2DP`, ortho-oxide.c 1246. -/
def D3GDR0S2DP : ℝ :=
  0

/-- `D3GDR0DT2`, ortho-oxide.c 1248. -/
def D3GDR0DT2 : ℝ :=
  0

/-- `D3GDR0DTDP`, ortho-oxide.c 1249. -/
def D3GDR0DTDP : ℝ :=
  0

/-- `D3GDR0DP2`, ortho-oxide.c 1250. -/
def D3GDR0DP2 : ℝ :=
  0

/-- `D3GDR1R1R1`, ortho-oxide.c 1252-1253. -/
def D3GDR1R1R1 (t xmg2M1 xfe3M1 xmg2M2 xti4M2 xfe3M2 : ℝ) : ℝ :=
  R * t * ((-(1 / 8)) / xmg2M1 ^ 2 + (1 / 8) / xfe3M1 ^ 2 - (1 / 32) / xmg2M2 ^ 2 - (1 / 4) / xti4M2 ^ 2 + (27
    / 32) / xfe3M2 ^ 2)

/-- `D3GDR1R1S0`, ortho-oxide.c 1254. -/
def D3GDR1R1S0 (t xfe3M1 xti4M2 xfe3M2 : ℝ) : ℝ :=
  R * t * ((-(1 / 8)) / xfe3M1 ^ 2 - (1 / 8) / xti4M2 ^ 2 + (9 / 32) / xfe3M2 ^ 2)

/-- `D3GDR1R1S1`, ortho-oxide.c 1255. -/
def D3GDR1R1S1 (t xti4M2 : ℝ) : ℝ :=
  R * t * ((-(1 / 8)) / xti4M2 ^ 2)

/-- `D3GDR1R1S2`, ortho-oxide.c 1256. -/
def D3GDR1R1S2 (t xmg2M1 xmg2M2 xti4M2 : ℝ) : ℝ :=
  R * t * ((-(1 / 8)) / xmg2M1 ^ 2 + (1 / 32) / xmg2M2 ^ 2 - (1 / 8) / xti4M2 ^ 2)

/-- `D3GDR1R1DT`, ortho-oxide.c 1257. -/
def D3GDR1R1DT (xmg2M1 xfe3M1 xmg2M2 xti4M2 xfe3M2 : ℝ) : ℝ :=
  R * ((1 / 4) / xmg2M1 + (1 / 4) / xfe3M1 + (1 / 8) / xmg2M2 + (1 / 2) / xti4M2 + (9 / 8) / xfe3M2)

/-- `D3GDR1R1DP`, ortho-oxide.c 1258. -/
def D3GDR1R1DP : ℝ :=
  0

/-- `D3GDR1S0S0`, ortho-oxide.c 1260. -/
def D3GDR1S0S0 (t xfe3M1 xti4M2 xfe3M2 : ℝ) : ℝ :=
  R * t * ((1 / 8) / xfe3M1 ^ 2 - (1 / 16) / xti4M2 ^ 2 + (3 / 32) / xfe3M2 ^ 2)

/-- `D3GDR1S0S1`, ortho-oxide.c 1261. -/
def D3GDR1S0S1 (t xti4M2 : ℝ) : ℝ :=
  R * t * ((-(1 / 16)) / xti4M2 ^ 2)

/-- `D3GDR1S0S2`, ortho-oxide.c 1262. -/
def D3GDR1S0S2 (t xti4M2 : ℝ) : ℝ :=
  R * t * ((-(1 / 16)) / xti4M2 ^ 2)

/-- `D3GDR1S0DT`, ortho-oxide.c 1263. -/
def D3GDR1S0DT (xfe3M1 xti4M2 xfe3M2 : ℝ) : ℝ :=
  R * ((-(1 / 4)) / xfe3M1 + (1 / 4) / xti4M2 + (3 / 8) / xfe3M2)

/-- `D3GDR1S0DP`, ortho-oxide.c 1264. -/
def D3GDR1S0DP : ℝ :=
  0

/-- `D3GDR1S1S1`, ortho-oxide.c 1266. -/
def D3GDR1S1S1 (t xti4M2 : ℝ) : ℝ :=
  R * t * ((-(1 / 16)) / xti4M2 ^ 2)

/-- `D3GDR1S1S2`, ortho-oxide.c 1267. -/
def D3GDR1S1S2 (t xti4M2 : ℝ) : ℝ :=
  R * t * ((-(1 / 16)) / xti4M2 ^ 2)

/-- `D3GDR1S1DT`, ortho-oxide.c 1268. -/
def D3GDR1S1DT (xti4M2 : ℝ) : ℝ :=
  R * ((1 / 4) / xti4M2)

/-- `D3GDR1S1DP`, ortho-oxide.c 1269. -/
def D3GDR1S1DP : ℝ :=
  0

/-- `D3GDR1S2S2`, ortho-oxide.c 1271. -/
def D3GDR1S2S2 (t xmg2M1 xmg2M2 xti4M2 : ℝ) : ℝ :=
  R * t * ((-(1 / 8)) / xmg2M1 ^ 2 - (1 / 32) / xmg2M2 ^ 2 - (1 / 16) / xti4M2 ^ 2)

/-- `D3GDR1S2DT`, ortho-oxide.c 1272. -/
def D3GDR1S2DT (xmg2M1 xmg2M2 xti4M2 : ℝ) : ℝ :=
  R * ((1 / 4) / xmg2M1 - (1 / 8) / xmg2M2 + (1 / 4) / xti4M2)

/-- `D3GDR1S2DP`, ortho-oxide.c 1273. -/
def D3GDR1S2DP : ℝ :=
  0

/-- `D3GDR1DT2`, ortho-oxide.c 1275. -/
def D3GDR1DT2 : ℝ :=
  0

/-- `D3GDR1DTDP`, ortho-oxide.c 1276. -/
def D3GDR1DTDP : ℝ :=
  0

/-- `D3GDR1DP2`, ortho-oxide.c 1277. -/
def D3GDR1DP2 : ℝ :=
  0

/-- `D3GDS0S0S0`, ortho-oxide.c 1279-1280. -/
def D3GDS0S0S0 (t xti4M1 xfe3M1 xti4M2 xfe3M2 : ℝ) : ℝ :=
  R * t * ((1 / 8) / xti4M1 ^ 2 - (1 / 8) / xfe3M1 ^ 2 - (1 / 32) / xti4M2 ^ 2 + (1 / 32) / xfe3M2 ^ 2)

/-- `D3GDS0S0S1`, ortho-oxide.c 1281. -/
def D3GDS0S0S1 (t xti4M1 xti4M2 : ℝ) : ℝ :=
  R * t * ((1 / 8) / xti4M1 ^ 2 - (1 / 32) / xti4M2 ^ 2)

/-- `D3GDS0S0S2`, ortho-oxide.c 1282. -/
def D3GDS0S0S2 (t xti4M1 xti4M2 : ℝ) : ℝ :=
  R * t * ((1 / 8) / xti4M1 ^ 2 - (1 / 32) / xti4M2 ^ 2)

/-- `D3GDS0S0DT`, ortho-oxide.c 1283. -/
def D3GDS0S0DT (xti4M1 xfe3M1 xti4M2 xfe3M2 : ℝ) : ℝ :=
  R * ((1 / 4) / xti4M1 + (1 / 4) / xfe3M1 + (1 / 8) / xti4M2 + (1 / 8) / xfe3M2)

/-- `D3GDS0S0DP`, ortho-oxide.c 1284. -/
def D3GDS0S0DP : ℝ :=
  0

/-- `D3GDS0S1S1`, ortho-oxide.c 1286. -/
def D3GDS0S1S1 (t xti4M1 xti4M2 : ℝ) : ℝ :=
  R * t * ((1 / 8) / xti4M1 ^ 2 - (1 / 32) / xti4M2 ^ 2)

/-- `D3GDS0S1S2`, ortho-oxide.c 1287. -/
def D3GDS0S1S2 (t xti4M1 xti4M2 : ℝ) : ℝ :=
  R * t * ((1 / 8) / xti4M1 ^ 2 - (1 / 32) / xti4M2 ^ 2)

/-- `D3GDS0S1DT`, ortho-oxide.c 1288. -/
def D3GDS0S1DT (xti4M1 xti4M2 : ℝ) : ℝ :=
  R * ((1 / 4) / xti4M1 + (1 / 8) / xti4M2)

/-- `D3GDS0S1DP`, ortho-oxide.c 1289. -/
def D3GDS0S1DP : ℝ :=
  0

/-- `D3GDS0S2S2`, ortho-oxide.c 1291. -/
def D3GDS0S2S2 (t xti4M1 xti4M2 : ℝ) : ℝ :=
  R * t * ((1 / 8) / xti4M1 ^ 2 - (1 / 32) / xti4M2 ^ 2)

/-- `D3GDS0S2DT`, ortho-oxide.c 1292. -/
def D3GDS0S2DT (xti4M1 xti4M2 : ℝ) : ℝ :=
  R * ((1 / 4) / xti4M1 + (1 / 8) / xti4M2)

/-- `D3GDS0S2DP`, ortho-oxide.c 1293. -/
def D3GDS0S2DP : ℝ :=
  0

/-- `D3GDS0DT2`, ortho-oxide.c 1294. -/
def D3GDS0DT2 : ℝ :=
  0

/-- `D3GDS0DTDP`, ortho-oxide.c 1295. -/
def D3GDS0DTDP : ℝ :=
  0

/-- `D3GDS0DP2`, ortho-oxide.c 1296. -/
def D3GDS0DP2 : ℝ :=
  0

/-- `D3GDS1S1S1`, ortho-oxide.c 1298-1299. -/
def D3GDS1S1S1 (t xfe2M1 xti4M1 xfe2M2 xti4M2 : ℝ) : ℝ :=
  R * t * ((-(1 / 8)) / xfe2M1 ^ 2 + (1 / 8) / xti4M1 ^ 2 + (1 / 32) / xfe2M2 ^ 2 - (1 / 32) / xti4M2 ^ 2)

/-- `D3GDS1S1S2`, ortho-oxide.c 1300. -/
def D3GDS1S1S2 (t xti4M1 xti4M2 : ℝ) : ℝ :=
  R * t * ((1 / 8) / xti4M1 ^ 2 - (1 / 32) / xti4M2 ^ 2)

/-- `D3GDS1S1DT`, ortho-oxide.c 1301. -/
def D3GDS1S1DT (xfe2M1 xti4M1 xfe2M2 xti4M2 : ℝ) : ℝ :=
  R * ((1 / 4) / xfe2M1 + (1 / 4) / xti4M1 + (1 / 8) / xfe2M2 + (1 / 8) / xti4M2)

/-- `D3GDS1S1DP`, ortho-oxide.c 1302. -/
def D3GDS1S1DP : ℝ :=
  0

/-- `D3GDS1S2S2`, ortho-oxide.c 1304. -/
def D3GDS1S2S2 (t xti4M1 xti4M2 : ℝ) : ℝ :=
  R * t * ((1 / 8) / xti4M1 ^ 2 - (1 / 32) / xti4M2 ^ 2)

/-- `D3GDS1S2DT`, ortho-oxide.c 1305. -/
def D3GDS1S2DT (xti4M1 xti4M2 : ℝ) : ℝ :=
  R * ((1 / 4) / xti4M1 + (1 / 8) / xti4M2)

/-- `D3GDS1S2DP`, ortho-oxide.c 1306. -/
def D3GDS1S2DP : ℝ :=
  0

/-- `D3GDS1DT2`, ortho-oxide.c 1307. -/
def D3GDS1DT2 : ℝ :=
  0

/-- `D3GDS1DTDP`, ortho-oxide.c 1308. -/
def D3GDS1DTDP : ℝ :=
  0

/-- `D3GDS1DP2`, ortho-oxide.c 1309. -/
def D3GDS1DP2 : ℝ :=
  0

/-- `D3GDS2S2S2`, ortho-oxide.c 1311-1312. -/
def D3GDS2S2S2 (t xmg2M1 xti4M1 xmg2M2 xti4M2 : ℝ) : ℝ :=
  R * t * ((-(1 / 8)) / xmg2M1 ^ 2 + (1 / 8) / xti4M1 ^ 2 + (1 / 32) / xmg2M2 ^ 2 - (1 / 32) / xti4M2 ^ 2)

/-- `D3GDS2S2DT`, ortho-oxide.c 1313. -/
def D3GDS2S2DT (xmg2M1 xti4M1 xmg2M2 xti4M2 : ℝ) : ℝ :=
  R * ((1 / 4) / xmg2M1 + (1 / 4) / xti4M1 + (1 / 8) / xmg2M2 + (1 / 8) / xti4M2)

/-- `D3GDS2S2DP`, ortho-oxide.c 1314. -/
def D3GDS2S2DP : ℝ :=
  0

/-- `D3GDS2DT2`, ortho-oxide.c 1315. -/
def D3GDS2DT2 : ℝ :=
  0

/-- `D3GDS2DTDP`, ortho-oxide.c 1316. -/
def D3GDS2DTDP : ℝ :=
  0

/-- `D3GDS2DP2`, ortho-oxide.c 1317. -/
def D3GDS2DP2 : ℝ :=
  0

/-- `D3GDT3`, ortho-oxide.c 1319. -/
def D3GDT3 : ℝ :=
  0

/-- `D3GDT2DP`, ortho-oxide.c 1320. -/
def D3GDT2DP : ℝ :=
  0

/-- `D3GDTDP2`, ortho-oxide.c 1321. -/
def D3GDTDP2 : ℝ :=
  0

/-- `D3GDP3`, ortho-oxide.c 1322. -/
def D3GDP3 : ℝ :=
  0

/-- The arrays as the functions of ortho-oxide.c fill them (lines 1328-1456), for site fractions `x` and variables `y`. -/
def tables (x : Fin 8 → ℝ) (y : Var 2 3 → ℝ) : Tables 2 3 where
g := G (y (.inl iT)) (y (.inl (.inl 0))) (y (.inl (.inl 1))) (y (.inr 0)) (y (.inr 1)) (y (.inr 2)) (x 0) (x
    1) (x 2) (x 3) (x 4) (x 5) (x 6) (x 7)
s := S (x 0) (x 1) (x 2) (x 3) (x 4) (x 5) (x 6) (x 7)
dgdr := ![DGDR0 (y (.inl iT)) (y (.inl (.inl 0))) (y (.inl (.inl 1))) (y (.inr 0)) (y (.inr 1)) (y (.inr 2))
    (x 0) (x 3) (x 4) (x 6) (x 7), DGDR1 (y (.inl iT)) (y (.inl (.inl 0))) (y (.inl (.inl 1))) (y (.inr 0)) (y
    (.inr 1)) (y (.inr 2)) (x 1) (x 3) (x 5) (x 6) (x 7)]
dgds := ![DGDS0 (y (.inl iT)) (y (.inl (.inl 0))) (y (.inl (.inl 1))) (y (.inr 0)) (y (.inr 1)) (y (.inr 2))
    (x 2) (x 3) (x 6) (x 7), DGDS1 (y (.inl iT)) (y (.inl (.inl 0))) (y (.inl (.inl 1))) (y (.inr 0)) (y (.inr
    1)) (y (.inr 2)) (x 0) (x 2) (x 4) (x 6), DGDS2 (y (.inl iT)) (y (.inl (.inl 0))) (y (.inl (.inl 1))) (y
    (.inr 0)) (y (.inr 1)) (y (.inr 2)) (x 1) (x 2) (x 5) (x 6)]
dgdt := DGDT (x 0) (x 1) (x 2) (x 3) (x 4) (x 5) (x 6) (x 7)
dgdp := DGDP
d2gdt2 := D2GDT2
d2gdtdp := D2GDTDP
d2gdp2 := D2GDP2
d3gdt3 := D3GDT3
d3gdt2dp := D3GDT2DP
d3gdtdp2 := D3GDTDP2
d3gdp3 := D3GDP3
d2gdr2 := ![![D2GDR0R0 (y (.inl iT)) (x 0) (x 3) (x 4) (x 6) (x 7), D2GDR0R1 (y (.inl iT)) (x 3) (x 6) (x
    7)], ![D2GDR0R1 (y (.inl iT)) (x 3) (x 6) (x 7), D2GDR1R1 (y (.inl iT)) (x 1) (x 3) (x 5) (x 6) (x 7)]]
d2gdrds := ![![D2GDR0S0 (y (.inl iT)) (x 3) (x 6) (x 7), D2GDR0S1 (y (.inl iT)) (x 0) (x 4) (x 6), D2GDR0S2
    (y (.inl iT)) (x 6)], ![D2GDR1S0 (y (.inl iT)) (x 3) (x 6) (x 7), D2GDR1S1 (y (.inl iT)) (x 6), D2GDR1S2 (y
    (.inl iT)) (x 1) (x 5) (x 6)]]
d2gdrdt := ![D2GDR0DT (x 0) (x 3) (x 4) (x 6) (x 7), D2GDR1DT (x 1) (x 3) (x 5) (x 6) (x 7)]
d2gdrdp := ![D2GDR0DP, D2GDR1DP]
d2gds2 := ![![D2GDS0S0 (y (.inl iT)) (x 2) (x 3) (x 6) (x 7), D2GDS0S1 (y (.inl iT)) (x 2) (x 6), D2GDS0S2
    (y (.inl iT)) (x 2) (x 6)], ![D2GDS0S1 (y (.inl iT)) (x 2) (x 6), D2GDS1S1 (y (.inl iT)) (x 0) (x 2) (x 4)
    (x 6), D2GDS1S2 (y (.inl iT)) (x 2) (x 6)], ![D2GDS0S2 (y (.inl iT)) (x 2) (x 6), D2GDS1S2 (y (.inl iT)) (x
    2) (x 6), D2GDS2S2 (y (.inl iT)) (x 1) (x 2) (x 5) (x 6)]]
d2gdsdt := ![D2GDS0DT (x 2) (x 3) (x 6) (x 7), D2GDS1DT (x 0) (x 2) (x 4) (x 6), D2GDS2DT (x 1) (x 2) (x 5)
    (x 6)]
d2gdsdp := ![D2GDS0DP, D2GDS1DP, D2GDS2DP]
d3gdr3 := ![![![D3GDR0R0R0 (y (.inl iT)) (x 0) (x 3) (x 4) (x 6) (x 7), D3GDR0R0R1 (y (.inl iT)) (x 3) (x 6)
    (x 7)], ![D3GDR0R0R1 (y (.inl iT)) (x 3) (x 6) (x 7), D3GDR0R1R1 (y (.inl iT)) (x 3) (x 6) (x 7)]],
    ![![D3GDR0R0R1 (y (.inl iT)) (x 3) (x 6) (x 7), D3GDR0R1R1 (y (.inl iT)) (x 3) (x 6) (x 7)], ![D3GDR0R1R1 (y
    (.inl iT)) (x 3) (x 6) (x 7), D3GDR1R1R1 (y (.inl iT)) (x 1) (x 3) (x 5) (x 6) (x 7)]]]
d3gdr2ds := ![![![D3GDR0R0S0 (y (.inl iT)) (x 3) (x 6) (x 7), D3GDR0R0S1 (y (.inl iT)) (x 0) (x 4) (x 6),
    D3GDR0R0S2 (y (.inl iT)) (x 6)], ![D3GDR0R1S0 (y (.inl iT)) (x 3) (x 6) (x 7), D3GDR0R1S1 (y (.inl iT)) (x
    6), D3GDR0R1S2 (y (.inl iT)) (x 6)]], ![![D3GDR0R1S0 (y (.inl iT)) (x 3) (x 6) (x 7), D3GDR0R1S1 (y (.inl
    iT)) (x 6), D3GDR0R1S2 (y (.inl iT)) (x 6)], ![D3GDR1R1S0 (y (.inl iT)) (x 3) (x 6) (x 7), D3GDR1R1S1 (y
    (.inl iT)) (x 6), D3GDR1R1S2 (y (.inl iT)) (x 1) (x 5) (x 6)]]]
d3gdr2dt := ![![D3GDR0R0DT (x 0) (x 3) (x 4) (x 6) (x 7), D3GDR0R1DT (x 3) (x 6) (x 7)], ![D3GDR0R1DT (x 3)
    (x 6) (x 7), D3GDR1R1DT (x 1) (x 3) (x 5) (x 6) (x 7)]]
d3gdr2dp := ![![D3GDR0R0DP, D3GDR0R1DP], ![D3GDR0R1DP, D3GDR1R1DP]]
d3gdrds2 := ![![![D3GDR0S0S0 (y (.inl iT)) (x 3) (x 6) (x 7), D3GDR0S0S1 (y (.inl iT)) (x 6), D3GDR0S0S2 (y
    (.inl iT)) (x 6)], ![D3GDR0S0S1 (y (.inl iT)) (x 6), D3GDR0S1S1 (y (.inl iT)) (x 0) (x 4) (x 6), D3GDR0S1S2
    (y (.inl iT)) (x 6)], ![D3GDR0S0S2 (y (.inl iT)) (x 6), D3GDR0S1S2 (y (.inl iT)) (x 6), D3GDR0S2S2 (y (.inl
    iT)) (x 6)]], ![![D3GDR1S0S0 (y (.inl iT)) (x 3) (x 6) (x 7), D3GDR1S0S1 (y (.inl iT)) (x 6), D3GDR1S0S2 (y
    (.inl iT)) (x 6)], ![D3GDR1S0S1 (y (.inl iT)) (x 6), D3GDR1S1S1 (y (.inl iT)) (x 6), D3GDR1S1S2 (y (.inl
    iT)) (x 6)], ![D3GDR1S0S2 (y (.inl iT)) (x 6), D3GDR1S1S2 (y (.inl iT)) (x 6), D3GDR1S2S2 (y (.inl iT)) (x
    1) (x 5) (x 6)]]]
d3gdrdsdt := ![![D3GDR0S0DT (x 3) (x 6) (x 7), D3GDR0S1DT (x 0) (x 4) (x 6), D3GDR0S2DT (x 6)], ![D3GDR1S0DT
    (x 3) (x 6) (x 7), D3GDR1S1DT (x 6), D3GDR1S2DT (x 1) (x 5) (x 6)]]
d3gdrdsdp := ![![D3GDR0S0DP, D3GDR0S1DP, D3GDR0S2DP], ![D3GDR1S0DP, D3GDR1S1DP, D3GDR1S2DP]]
d3gdrdt2 := ![D3GDR0DT2, D3GDR1DT2]
d3gdrdtdp := ![D3GDR0DTDP, D3GDR1DTDP]
d3gdrdp2 := ![D3GDR0DP2, D3GDR1DP2]
d3gds3 := ![![![D3GDS0S0S0 (y (.inl iT)) (x 2) (x 3) (x 6) (x 7), D3GDS0S0S1 (y (.inl iT)) (x 2) (x 6),
    D3GDS0S0S2 (y (.inl iT)) (x 2) (x 6)], ![D3GDS0S0S1 (y (.inl iT)) (x 2) (x 6), D3GDS0S1S1 (y (.inl iT)) (x
    2) (x 6), D3GDS0S1S2 (y (.inl iT)) (x 2) (x 6)], ![D3GDS0S0S2 (y (.inl iT)) (x 2) (x 6), D3GDS0S1S2 (y (.inl
    iT)) (x 2) (x 6), D3GDS0S2S2 (y (.inl iT)) (x 2) (x 6)]], ![![D3GDS0S0S1 (y (.inl iT)) (x 2) (x 6),
    D3GDS0S1S1 (y (.inl iT)) (x 2) (x 6), D3GDS0S1S2 (y (.inl iT)) (x 2) (x 6)], ![D3GDS0S1S1 (y (.inl iT)) (x
    2) (x 6), D3GDS1S1S1 (y (.inl iT)) (x 0) (x 2) (x 4) (x 6), D3GDS1S1S2 (y (.inl iT)) (x 2) (x 6)],
    ![D3GDS0S1S2 (y (.inl iT)) (x 2) (x 6), D3GDS1S1S2 (y (.inl iT)) (x 2) (x 6), D3GDS1S2S2 (y (.inl iT)) (x 2)
    (x 6)]], ![![D3GDS0S0S2 (y (.inl iT)) (x 2) (x 6), D3GDS0S1S2 (y (.inl iT)) (x 2) (x 6), D3GDS0S2S2 (y (.inl
    iT)) (x 2) (x 6)], ![D3GDS0S1S2 (y (.inl iT)) (x 2) (x 6), D3GDS1S1S2 (y (.inl iT)) (x 2) (x 6), D3GDS1S2S2
    (y (.inl iT)) (x 2) (x 6)], ![D3GDS0S2S2 (y (.inl iT)) (x 2) (x 6), D3GDS1S2S2 (y (.inl iT)) (x 2) (x 6),
    D3GDS2S2S2 (y (.inl iT)) (x 1) (x 2) (x 5) (x 6)]]]
d3gds2dt := ![![D3GDS0S0DT (x 2) (x 3) (x 6) (x 7), D3GDS0S1DT (x 2) (x 6), D3GDS0S2DT (x 2) (x 6)],
    ![D3GDS0S1DT (x 2) (x 6), D3GDS1S1DT (x 0) (x 2) (x 4) (x 6), D3GDS1S2DT (x 2) (x 6)], ![D3GDS0S2DT (x 2) (x
    6), D3GDS1S2DT (x 2) (x 6), D3GDS2S2DT (x 1) (x 2) (x 5) (x 6)]]
d3gds2dp := ![![D3GDS0S0DP, D3GDS0S1DP, D3GDS0S2DP], ![D3GDS0S1DP, D3GDS1S1DP, D3GDS1S2DP], ![D3GDS0S2DP,
    D3GDS1S2DP, D3GDS2S2DP]]
d3gdsdt2 := ![D3GDS0DT2, D3GDS1DT2, D3GDS2DT2]
d3gdsdtdp := ![D3GDS0DTDP, D3GDS1DTDP, D3GDS2DTDP]
d3gdsdp2 := ![D3GDS0DP2, D3GDS1DP2, D3GDS2DP2]

/-- Site fractions before they are kept inside their bounds, ortho-oxide.c 1507-1525. -/
def raw (y : Var 2 3 → ℝ) : Fin 8 → ℝ :=
  ![((y (.inl (.inl 0))) + (y (.inr 1))) / 2, ((y (.inl (.inl 1))) + (y (.inr 2))) / 2, (1 - (y (.inr 0)) - (y
    (.inr 1)) - (y (.inr 2))) / 2, (1 - (y (.inl (.inl 0))) - (y (.inl (.inl 1))) + (y (.inr 0))) / 2, ((y (.inl
    (.inl 0))) - (y (.inr 1))) / 4, ((y (.inl (.inl 1))) - (y (.inr 2))) / 4, (1 + 2 * (y (.inl (.inl 0))) + 2 *
    (y (.inl (.inl 1))) + (y (.inr 0)) + (y (.inr 1)) + (y (.inr 2))) / 4, (3 - 3 * (y (.inl (.inl 0))) - 3 * (y
    (.inl (.inl 1))) - (y (.inr 0))) / 4]

/-- Bounds applied to the site fractions, ortho-oxide.c 1507-1525. -/
def site (y : Var 2 3 → ℝ) : Fin 8 → ℝ :=
  ![keepAbove 0 (raw y 0), keepAbove 0 (raw y 1), keepAbove 0 (raw y 2), keepAbove 0 (raw y 3), keepAbove 0
    (raw y 4), keepAbove 0 (raw y 5), keepAbove 0 (raw y 6), keepAbove 0 (raw y 7)]

/-- The macros of ortho-oxide.c at given composition, conditions and ordering state. -/
def macros (y : Var 2 3 → ℝ) : Tables 2 3 := tables (site y) y

/-- Where no bound on the site fractions is active. -/
def Dom (y : Var 2 3 → ℝ) : Prop :=
  (0 < raw y 0) ∧ (0 < raw y 1) ∧ (0 < raw y 2) ∧ (0 < raw y 3) ∧ (0 < raw y 4) ∧ (0 < raw y 5) ∧ (0 < raw y
    6) ∧ (0 < raw y 7)

lemma hl (y u : Var 2 3 → ℝ) (i : Var 2 3) : HasDerivAt (fun v : ℝ => y i + v * u i) (u i) 0 := by
  simpa using ((hasDerivAt_id' (0 : ℝ)).mul_const (u i)).const_add (y i)

lemma raw_line0 (y u : Var 2 3 → ℝ) : HasDerivAt (fun v : ℝ => raw (fun i => y i + v * u i) 0)
    ((1 / 2) * u (.inl (.inl 0)) + (1 / 2) * u (.inr 1)) 0 := by
  have hr0 := hl y u ((.inl (.inl 0)))
  have hr1 := hl y u ((.inl (.inl 1)))
  have hs0 := hl y u ((.inr 0))
  have hs1 := hl y u ((.inr 1))
  have hs2 := hl y u ((.inr 2))
  change HasDerivAt (fun v : ℝ => ((y (.inl (.inl 0)) + v * u (.inl (.inl 0))) + (y (.inr 1) + v * u (.inr 1))) / 2) _ 0
  refine HasDerivAt.congr_deriv (by hdo) ?_
  ring

lemma raw_line1 (y u : Var 2 3 → ℝ) : HasDerivAt (fun v : ℝ => raw (fun i => y i + v * u i) 1)
    ((1 / 2) * u (.inl (.inl 1)) + (1 / 2) * u (.inr 2)) 0 := by
  have hr0 := hl y u ((.inl (.inl 0)))
  have hr1 := hl y u ((.inl (.inl 1)))
  have hs0 := hl y u ((.inr 0))
  have hs1 := hl y u ((.inr 1))
  have hs2 := hl y u ((.inr 2))
  change HasDerivAt (fun v : ℝ => ((y (.inl (.inl 1)) + v * u (.inl (.inl 1))) + (y (.inr 2) + v * u (.inr 2))) / 2) _ 0
  refine HasDerivAt.congr_deriv (by hdo) ?_
  ring

lemma raw_line2 (y u : Var 2 3 → ℝ) : HasDerivAt (fun v : ℝ => raw (fun i => y i + v * u i) 2)
    ((-(1) / 2) * u (.inr 0) + (-(1) / 2) * u (.inr 1) + (-(1) / 2) * u (.inr 2)) 0 := by
  have hr0 := hl y u ((.inl (.inl 0)))
  have hr1 := hl y u ((.inl (.inl 1)))
  have hs0 := hl y u ((.inr 0))
  have hs1 := hl y u ((.inr 1))
  have hs2 := hl y u ((.inr 2))
  change HasDerivAt (fun v : ℝ => (1 - (y (.inr 0) + v * u (.inr 0)) - (y (.inr 1) + v * u (.inr 1)) - (y (.inr 2) + v * u (.inr 2))) / 2) _ 0
  refine HasDerivAt.congr_deriv (by hdo) ?_
  ring

lemma raw_line3 (y u : Var 2 3 → ℝ) : HasDerivAt (fun v : ℝ => raw (fun i => y i + v * u i) 3)
    ((-(1) / 2) * u (.inl (.inl 0)) + (-(1) / 2) * u (.inl (.inl 1)) + (1 / 2) * u (.inr 0)) 0 := by
  have hr0 := hl y u ((.inl (.inl 0)))
  have hr1 := hl y u ((.inl (.inl 1)))
  have hs0 := hl y u ((.inr 0))
  have hs1 := hl y u ((.inr 1))
  have hs2 := hl y u ((.inr 2))
  change HasDerivAt (fun v : ℝ => (1 - (y (.inl (.inl 0)) + v * u (.inl (.inl 0))) - (y (.inl (.inl 1)) + v * u (.inl (.inl 1))) + (y (.inr 0)
    + v * u (.inr 0))) / 2) _ 0
  refine HasDerivAt.congr_deriv (by hdo) ?_
  ring

lemma raw_line4 (y u : Var 2 3 → ℝ) : HasDerivAt (fun v : ℝ => raw (fun i => y i + v * u i) 4)
    ((1 / 4) * u (.inl (.inl 0)) + (-(1) / 4) * u (.inr 1)) 0 := by
  have hr0 := hl y u ((.inl (.inl 0)))
  have hr1 := hl y u ((.inl (.inl 1)))
  have hs0 := hl y u ((.inr 0))
  have hs1 := hl y u ((.inr 1))
  have hs2 := hl y u ((.inr 2))
  change HasDerivAt (fun v : ℝ => ((y (.inl (.inl 0)) + v * u (.inl (.inl 0))) - (y (.inr 1) + v * u (.inr 1))) / 4) _ 0
  refine HasDerivAt.congr_deriv (by hdo) ?_
  ring

lemma raw_line5 (y u : Var 2 3 → ℝ) : HasDerivAt (fun v : ℝ => raw (fun i => y i + v * u i) 5)
    ((1 / 4) * u (.inl (.inl 1)) + (-(1) / 4) * u (.inr 2)) 0 := by
  have hr0 := hl y u ((.inl (.inl 0)))
  have hr1 := hl y u ((.inl (.inl 1)))
  have hs0 := hl y u ((.inr 0))
  have hs1 := hl y u ((.inr 1))
  have hs2 := hl y u ((.inr 2))
  change HasDerivAt (fun v : ℝ => ((y (.inl (.inl 1)) + v * u (.inl (.inl 1))) - (y (.inr 2) + v * u (.inr 2))) / 4) _ 0
  refine HasDerivAt.congr_deriv (by hdo) ?_
  ring

lemma raw_line6 (y u : Var 2 3 → ℝ) : HasDerivAt (fun v : ℝ => raw (fun i => y i + v * u i) 6)
    ((1 / 2) * u (.inl (.inl 0)) + (1 / 2) * u (.inl (.inl 1)) + (1 / 4) * u (.inr 0) + (1 / 4) * u (.inr 1) + (1 / 4) * u (.inr 2)) 0 := by
  have hr0 := hl y u ((.inl (.inl 0)))
  have hr1 := hl y u ((.inl (.inl 1)))
  have hs0 := hl y u ((.inr 0))
  have hs1 := hl y u ((.inr 1))
  have hs2 := hl y u ((.inr 2))
  change HasDerivAt (fun v : ℝ => (1 + 2 * (y (.inl (.inl 0)) + v * u (.inl (.inl 0))) + 2 * (y (.inl (.inl 1)) + v * u (.inl (.inl 1))) + (y
    (.inr 0) + v * u (.inr 0)) + (y (.inr 1) + v * u (.inr 1)) + (y (.inr 2) + v * u (.inr 2))) / 4) _ 0
  refine HasDerivAt.congr_deriv (by hdo) ?_
  ring

lemma raw_line7 (y u : Var 2 3 → ℝ) : HasDerivAt (fun v : ℝ => raw (fun i => y i + v * u i) 7)
    ((-(3) / 4) * u (.inl (.inl 0)) + (-(3) / 4) * u (.inl (.inl 1)) + (-(1) / 4) * u (.inr 0)) 0 := by
  have hr0 := hl y u ((.inl (.inl 0)))
  have hr1 := hl y u ((.inl (.inl 1)))
  have hs0 := hl y u ((.inr 0))
  have hs1 := hl y u ((.inr 1))
  have hs2 := hl y u ((.inr 2))
  change HasDerivAt (fun v : ℝ => (3 - 3 * (y (.inl (.inl 0)) + v * u (.inl (.inl 0))) - 3 * (y (.inl (.inl 1)) + v * u (.inl (.inl 1))) - (y
    (.inr 0) + v * u (.inr 0))) / 4) _ 0
  refine HasDerivAt.congr_deriv (by hdo) ?_
  ring

lemma raw_diff (k : Fin 8) (y : Var 2 3 → ℝ) : DifferentiableAt ℝ (fun y => raw y k) y := by
  fin_cases k
  · change DifferentiableAt ℝ (fun y : Var 2 3 → ℝ => ((y (.inl (.inl 0))) + (y (.inr 1))) / 2) y; ddo
  · change DifferentiableAt ℝ (fun y : Var 2 3 → ℝ => ((y (.inl (.inl 1))) + (y (.inr 2))) / 2) y; ddo
  · change DifferentiableAt ℝ (fun y : Var 2 3 → ℝ => (1 - (y (.inr 0)) - (y (.inr 1)) - (y (.inr 2))) / 2) y; ddo
  · change DifferentiableAt ℝ (fun y : Var 2 3 → ℝ => (1 - (y (.inl (.inl 0))) - (y (.inl (.inl 1))) + (y (.inr 0))) / 2) y; ddo
  · change DifferentiableAt ℝ (fun y : Var 2 3 → ℝ => ((y (.inl (.inl 0))) - (y (.inr 1))) / 4) y; ddo
  · change DifferentiableAt ℝ (fun y : Var 2 3 → ℝ => ((y (.inl (.inl 1))) - (y (.inr 2))) / 4) y; ddo
  · change DifferentiableAt ℝ (fun y : Var 2 3 → ℝ => (1 + 2 * (y (.inl (.inl 0))) + 2 * (y (.inl (.inl 1))) + (y (.inr 0)) + (y (.inr 1)) + (y (.inr 2))) / 4) y; ddo
  · change DifferentiableAt ℝ (fun y : Var 2 3 → ℝ => (3 - 3 * (y (.inl (.inl 0))) - 3 * (y (.inl (.inl 1))) - (y (.inr 0))) / 4) y; ddo

lemma pos (y : Var 2 3 → ℝ) (hy : Dom y) :
    0 < raw y 0 ∧ 0 < raw y 1 ∧ 0 < raw y 2 ∧ 0 < raw y 3 ∧ 0 < raw y 4 ∧ 0 < raw y 5 ∧ 0 < raw y 6 ∧ 0 < raw y
    7 := by
  have he := dblEps_pos
  obtain ⟨h0, h1, h2, h3, h4, h5, h6, h7⟩ := hy
  refine ⟨?_, ?_, ?_, ?_, ?_, ?_, ?_, ?_⟩ <;> first | linarith | assumption

lemma c_G {t p r0 r1 s0 s1 s2 xfe2M1 xmg2M1 xti4M1 xfe3M1 xfe2M2 xmg2M2 xti4M2 xfe3M2 : ℝ → ℝ} {v dt dp dr0 dr1 ds0
    ds1 ds2 : ℝ} (ht : HasDerivAt t dt v) (hp : HasDerivAt p dp v) (hr0 : HasDerivAt r0 dr0 v) (hr1 : HasDerivAt
    r1 dr1 v) (hs0 : HasDerivAt s0 ds0 v) (hs1 : HasDerivAt s1 ds1 v) (hs2 : HasDerivAt s2 ds2 v) (hxfe2M1 :
    HasDerivAt xfe2M1 ((1 / 2) * dr0 + (1 / 2) * ds1) v) (pxfe2M1 : 0 < xfe2M1 v) (hxmg2M1 : HasDerivAt xmg2M1
    ((1 / 2) * dr1 + (1 / 2) * ds2) v) (pxmg2M1 : 0 < xmg2M1 v) (hxti4M1 : HasDerivAt xti4M1 ((-(1) / 2) * ds0 +
    (-(1) / 2) * ds1 + (-(1) / 2) * ds2) v) (pxti4M1 : 0 < xti4M1 v) (hxfe3M1 : HasDerivAt xfe3M1 ((-(1) / 2) *
    dr0 + (-(1) / 2) * dr1 + (1 / 2) * ds0) v) (pxfe3M1 : 0 < xfe3M1 v) (hxfe2M2 : HasDerivAt xfe2M2 ((1 / 4) *
    dr0 + (-(1) / 4) * ds1) v) (pxfe2M2 : 0 < xfe2M2 v) (hxmg2M2 : HasDerivAt xmg2M2 ((1 / 4) * dr1 + (-(1) / 4)
    * ds2) v) (pxmg2M2 : 0 < xmg2M2 v) (hxti4M2 : HasDerivAt xti4M2 ((1 / 2) * dr0 + (1 / 2) * dr1 + (1 / 4) *
    ds0 + (1 / 4) * ds1 + (1 / 4) * ds2) v) (pxti4M2 : 0 < xti4M2 v) (hxfe3M2 : HasDerivAt xfe3M2 ((-(3) / 4) *
    dr0 + (-(3) / 4) * dr1 + (-(1) / 4) * ds0) v) (pxfe3M2 : 0 < xfe3M2 v) :
    HasDerivAt (fun v => G (t v) (r0 v) (r1 v) (s0 v) (s1 v) (s2 v) (xfe2M1 v) (xmg2M1 v) (xti4M1 v) (xfe3M1 v) (xfe2M2 v) (xmg2M2 v) (xti4M2 v) (xfe3M2 v))
    (((DGDR0 (t v) (r0 v) (r1 v) (s0 v) (s1 v) (s2 v) (xfe2M1 v) (xfe3M1 v) (xfe2M2 v) (xti4M2 v) (xfe3M2 v)) *
    dr0 + (DGDR1 (t v) (r0 v) (r1 v) (s0 v) (s1 v) (s2 v) (xmg2M1 v) (xfe3M1 v) (xmg2M2 v) (xti4M2 v) (xfe3M2
    v)) * dr1) + ((DGDT (xfe2M1 v) (xmg2M1 v) (xti4M1 v) (xfe3M1 v) (xfe2M2 v) (xmg2M2 v) (xti4M2 v) (xfe3M2 v))
    * dt + DGDP * dp) + ((DGDS0 (t v) (r0 v) (r1 v) (s0 v) (s1 v) (s2 v) (xti4M1 v) (xfe3M1 v) (xti4M2 v)
    (xfe3M2 v)) * ds0 + (DGDS1 (t v) (r0 v) (r1 v) (s0 v) (s1 v) (s2 v) (xfe2M1 v) (xti4M1 v) (xfe2M2 v) (xti4M2
    v)) * ds1 + (DGDS2 (t v) (r0 v) (r1 v) (s0 v) (s1 v) (s2 v) (xmg2M1 v) (xti4M1 v) (xmg2M2 v) (xti4M2 v)) *
    ds2)) v := by
  have nxfe2M1 := pxfe2M1.ne'
  have nxmg2M1 := pxmg2M1.ne'
  have nxti4M1 := pxti4M1.ne'
  have nxfe3M1 := pxfe3M1.ne'
  have nxfe2M2 := pxfe2M2.ne'
  have nxmg2M2 := pxmg2M2.ne'
  have nxti4M2 := pxti4M2.ne'
  have nxfe3M2 := pxfe3M2.ne'
  try simp only [G0, GX2, GX3, GS1, GS2, GS3, GX2X2, GX2X3, GX2S1, GX2S2, GX2S3, GX3X3, GX3S1, GX3S2, GX3S3, GS1S1, GS1S2, GS1S3, GS2S2, GS2S3, GS3S3, H, S, G, DGDT, DGDP, DGDR0, DGDR1, DGDS0, DGDS1, DGDS2, zero_mul, mul_zero, add_zero, zero_add, sub_zero]
  refine HasDerivAt.congr_deriv (by hdq) ?_
  ring

lemma c_DGDR0 {t p r0 r1 s0 s1 s2 xfe2M1 xfe3M1 xfe2M2 xti4M2 xfe3M2 : ℝ → ℝ} {v dt dp dr0 dr1 ds0 ds1 ds2 : ℝ} (ht :
    HasDerivAt t dt v) (hp : HasDerivAt p dp v) (hr0 : HasDerivAt r0 dr0 v) (hr1 : HasDerivAt r1 dr1 v) (hs0 :
    HasDerivAt s0 ds0 v) (hs1 : HasDerivAt s1 ds1 v) (hs2 : HasDerivAt s2 ds2 v) (hxfe2M1 : HasDerivAt xfe2M1
    ((1 / 2) * dr0 + (1 / 2) * ds1) v) (pxfe2M1 : 0 < xfe2M1 v) (hxfe3M1 : HasDerivAt xfe3M1 ((-(1) / 2) * dr0 +
    (-(1) / 2) * dr1 + (1 / 2) * ds0) v) (pxfe3M1 : 0 < xfe3M1 v) (hxfe2M2 : HasDerivAt xfe2M2 ((1 / 4) * dr0 +
    (-(1) / 4) * ds1) v) (pxfe2M2 : 0 < xfe2M2 v) (hxti4M2 : HasDerivAt xti4M2 ((1 / 2) * dr0 + (1 / 2) * dr1 +
    (1 / 4) * ds0 + (1 / 4) * ds1 + (1 / 4) * ds2) v) (pxti4M2 : 0 < xti4M2 v) (hxfe3M2 : HasDerivAt xfe3M2
    ((-(3) / 4) * dr0 + (-(3) / 4) * dr1 + (-(1) / 4) * ds0) v) (pxfe3M2 : 0 < xfe3M2 v) :
    HasDerivAt (fun v => DGDR0 (t v) (r0 v) (r1 v) (s0 v) (s1 v) (s2 v) (xfe2M1 v) (xfe3M1 v) (xfe2M2 v) (xti4M2 v) (xfe3M2 v))
    (((D2GDR0R0 (t v) (xfe2M1 v) (xfe3M1 v) (xfe2M2 v) (xti4M2 v) (xfe3M2 v)) * dr0 + (D2GDR0R1 (t v) (xfe3M1 v)
    (xti4M2 v) (xfe3M2 v)) * dr1) + ((D2GDR0DT (xfe2M1 v) (xfe3M1 v) (xfe2M2 v) (xti4M2 v) (xfe3M2 v)) * dt +
    D2GDR0DP * dp) + ((D2GDR0S0 (t v) (xfe3M1 v) (xti4M2 v) (xfe3M2 v)) * ds0 + (D2GDR0S1 (t v) (xfe2M1 v)
    (xfe2M2 v) (xti4M2 v)) * ds1 + (D2GDR0S2 (t v) (xti4M2 v)) * ds2)) v := by
  have nxfe2M1 := pxfe2M1.ne'
  have nxfe3M1 := pxfe3M1.ne'
  have nxfe2M2 := pxfe2M2.ne'
  have nxti4M2 := pxti4M2.ne'
  have nxfe3M2 := pxfe3M2.ne'
  try simp only [GX2, GX2X2, GX2X3, GX2S1, GX2S2, GX2S3, DGDR0, D2GDR0DT, D2GDR0DP, D2GDR0R0, D2GDR0R1, D2GDR0S0, D2GDR0S1, D2GDR0S2, zero_mul, mul_zero, add_zero, zero_add, sub_zero]
  refine HasDerivAt.congr_deriv (by hdq) ?_
  ring

lemma c_DGDR1 {t p r0 r1 s0 s1 s2 xmg2M1 xfe3M1 xmg2M2 xti4M2 xfe3M2 : ℝ → ℝ} {v dt dp dr0 dr1 ds0 ds1 ds2 : ℝ} (ht :
    HasDerivAt t dt v) (hp : HasDerivAt p dp v) (hr0 : HasDerivAt r0 dr0 v) (hr1 : HasDerivAt r1 dr1 v) (hs0 :
    HasDerivAt s0 ds0 v) (hs1 : HasDerivAt s1 ds1 v) (hs2 : HasDerivAt s2 ds2 v) (hxmg2M1 : HasDerivAt xmg2M1
    ((1 / 2) * dr1 + (1 / 2) * ds2) v) (pxmg2M1 : 0 < xmg2M1 v) (hxfe3M1 : HasDerivAt xfe3M1 ((-(1) / 2) * dr0 +
    (-(1) / 2) * dr1 + (1 / 2) * ds0) v) (pxfe3M1 : 0 < xfe3M1 v) (hxmg2M2 : HasDerivAt xmg2M2 ((1 / 4) * dr1 +
    (-(1) / 4) * ds2) v) (pxmg2M2 : 0 < xmg2M2 v) (hxti4M2 : HasDerivAt xti4M2 ((1 / 2) * dr0 + (1 / 2) * dr1 +
    (1 / 4) * ds0 + (1 / 4) * ds1 + (1 / 4) * ds2) v) (pxti4M2 : 0 < xti4M2 v) (hxfe3M2 : HasDerivAt xfe3M2
    ((-(3) / 4) * dr0 + (-(3) / 4) * dr1 + (-(1) / 4) * ds0) v) (pxfe3M2 : 0 < xfe3M2 v) :
    HasDerivAt (fun v => DGDR1 (t v) (r0 v) (r1 v) (s0 v) (s1 v) (s2 v) (xmg2M1 v) (xfe3M1 v) (xmg2M2 v) (xti4M2 v) (xfe3M2 v))
    (((D2GDR0R1 (t v) (xfe3M1 v) (xti4M2 v) (xfe3M2 v)) * dr0 + (D2GDR1R1 (t v) (xmg2M1 v) (xfe3M1 v) (xmg2M2 v)
    (xti4M2 v) (xfe3M2 v)) * dr1) + ((D2GDR1DT (xmg2M1 v) (xfe3M1 v) (xmg2M2 v) (xti4M2 v) (xfe3M2 v)) * dt +
    D2GDR1DP * dp) + ((D2GDR1S0 (t v) (xfe3M1 v) (xti4M2 v) (xfe3M2 v)) * ds0 + (D2GDR1S1 (t v) (xti4M2 v)) *
    ds1 + (D2GDR1S2 (t v) (xmg2M1 v) (xmg2M2 v) (xti4M2 v)) * ds2)) v := by
  have nxmg2M1 := pxmg2M1.ne'
  have nxfe3M1 := pxfe3M1.ne'
  have nxmg2M2 := pxmg2M2.ne'
  have nxti4M2 := pxti4M2.ne'
  have nxfe3M2 := pxfe3M2.ne'
  try simp only [GX3, GX2X3, GX3X3, GX3S1, GX3S2, GX3S3, DGDR1, D2GDR1DT, D2GDR1DP, D2GDR0R1, D2GDR1R1, D2GDR1S0, D2GDR1S1, D2GDR1S2, zero_mul, mul_zero, add_zero, zero_add, sub_zero]
  refine HasDerivAt.congr_deriv (by hdq) ?_
  ring

lemma c_DGDS0 {t p r0 r1 s0 s1 s2 xti4M1 xfe3M1 xti4M2 xfe3M2 : ℝ → ℝ} {v dt dp dr0 dr1 ds0 ds1 ds2 : ℝ} (ht : HasDerivAt
    t dt v) (hp : HasDerivAt p dp v) (hr0 : HasDerivAt r0 dr0 v) (hr1 : HasDerivAt r1 dr1 v) (hs0 : HasDerivAt
    s0 ds0 v) (hs1 : HasDerivAt s1 ds1 v) (hs2 : HasDerivAt s2 ds2 v) (hxti4M1 : HasDerivAt xti4M1 ((-(1) / 2) *
    ds0 + (-(1) / 2) * ds1 + (-(1) / 2) * ds2) v) (pxti4M1 : 0 < xti4M1 v) (hxfe3M1 : HasDerivAt xfe3M1 ((-(1) /
    2) * dr0 + (-(1) / 2) * dr1 + (1 / 2) * ds0) v) (pxfe3M1 : 0 < xfe3M1 v) (hxti4M2 : HasDerivAt xti4M2 ((1 /
    2) * dr0 + (1 / 2) * dr1 + (1 / 4) * ds0 + (1 / 4) * ds1 + (1 / 4) * ds2) v) (pxti4M2 : 0 < xti4M2 v)
    (hxfe3M2 : HasDerivAt xfe3M2 ((-(3) / 4) * dr0 + (-(3) / 4) * dr1 + (-(1) / 4) * ds0) v) (pxfe3M2 : 0 <
    xfe3M2 v) :
    HasDerivAt (fun v => DGDS0 (t v) (r0 v) (r1 v) (s0 v) (s1 v) (s2 v) (xti4M1 v) (xfe3M1 v) (xti4M2 v) (xfe3M2 v))
    (((D2GDR0S0 (t v) (xfe3M1 v) (xti4M2 v) (xfe3M2 v)) * dr0 + (D2GDR1S0 (t v) (xfe3M1 v) (xti4M2 v) (xfe3M2 v))
    * dr1) + ((D2GDS0DT (xti4M1 v) (xfe3M1 v) (xti4M2 v) (xfe3M2 v)) * dt + D2GDS0DP * dp) + ((D2GDS0S0 (t v)
    (xti4M1 v) (xfe3M1 v) (xti4M2 v) (xfe3M2 v)) * ds0 + (D2GDS0S1 (t v) (xti4M1 v) (xti4M2 v)) * ds1 +
    (D2GDS0S2 (t v) (xti4M1 v) (xti4M2 v)) * ds2)) v := by
  have nxti4M1 := pxti4M1.ne'
  have nxfe3M1 := pxfe3M1.ne'
  have nxti4M2 := pxti4M2.ne'
  have nxfe3M2 := pxfe3M2.ne'
  try simp only [GS1, GX2S1, GX3S1, GS1S1, GS1S2, GS1S3, DGDS0, D2GDS0DT, D2GDS0DP, D2GDR0S0, D2GDR1S0, D2GDS0S0, D2GDS0S1, D2GDS0S2, zero_mul, mul_zero, add_zero, zero_add, sub_zero]
  refine HasDerivAt.congr_deriv (by hdq) ?_
  ring

lemma c_DGDS1 {t p r0 r1 s0 s1 s2 xfe2M1 xti4M1 xfe2M2 xti4M2 : ℝ → ℝ} {v dt dp dr0 dr1 ds0 ds1 ds2 : ℝ} (ht : HasDerivAt
    t dt v) (hp : HasDerivAt p dp v) (hr0 : HasDerivAt r0 dr0 v) (hr1 : HasDerivAt r1 dr1 v) (hs0 : HasDerivAt
    s0 ds0 v) (hs1 : HasDerivAt s1 ds1 v) (hs2 : HasDerivAt s2 ds2 v) (hxfe2M1 : HasDerivAt xfe2M1 ((1 / 2) *
    dr0 + (1 / 2) * ds1) v) (pxfe2M1 : 0 < xfe2M1 v) (hxti4M1 : HasDerivAt xti4M1 ((-(1) / 2) * ds0 + (-(1) / 2)
    * ds1 + (-(1) / 2) * ds2) v) (pxti4M1 : 0 < xti4M1 v) (hxfe2M2 : HasDerivAt xfe2M2 ((1 / 4) * dr0 + (-(1) /
    4) * ds1) v) (pxfe2M2 : 0 < xfe2M2 v) (hxti4M2 : HasDerivAt xti4M2 ((1 / 2) * dr0 + (1 / 2) * dr1 + (1 / 4)
    * ds0 + (1 / 4) * ds1 + (1 / 4) * ds2) v) (pxti4M2 : 0 < xti4M2 v) :
    HasDerivAt (fun v => DGDS1 (t v) (r0 v) (r1 v) (s0 v) (s1 v) (s2 v) (xfe2M1 v) (xti4M1 v) (xfe2M2 v) (xti4M2 v))
    (((D2GDR0S1 (t v) (xfe2M1 v) (xfe2M2 v) (xti4M2 v)) * dr0 + (D2GDR1S1 (t v) (xti4M2 v)) * dr1) + ((D2GDS1DT
    (xfe2M1 v) (xti4M1 v) (xfe2M2 v) (xti4M2 v)) * dt + D2GDS1DP * dp) + ((D2GDS0S1 (t v) (xti4M1 v) (xti4M2 v))
    * ds0 + (D2GDS1S1 (t v) (xfe2M1 v) (xti4M1 v) (xfe2M2 v) (xti4M2 v)) * ds1 + (D2GDS1S2 (t v) (xti4M1 v)
    (xti4M2 v)) * ds2)) v := by
  have nxfe2M1 := pxfe2M1.ne'
  have nxti4M1 := pxti4M1.ne'
  have nxfe2M2 := pxfe2M2.ne'
  have nxti4M2 := pxti4M2.ne'
  try simp only [GS2, GX2S2, GX3S2, GS1S2, GS2S2, GS2S3, DGDS1, D2GDS1DT, D2GDS1DP, D2GDR0S1, D2GDR1S1, D2GDS0S1, D2GDS1S1, D2GDS1S2, zero_mul, mul_zero, add_zero, zero_add, sub_zero]
  refine HasDerivAt.congr_deriv (by hdq) ?_
  ring

lemma c_DGDS2 {t p r0 r1 s0 s1 s2 xmg2M1 xti4M1 xmg2M2 xti4M2 : ℝ → ℝ} {v dt dp dr0 dr1 ds0 ds1 ds2 : ℝ} (ht : HasDerivAt
    t dt v) (hp : HasDerivAt p dp v) (hr0 : HasDerivAt r0 dr0 v) (hr1 : HasDerivAt r1 dr1 v) (hs0 : HasDerivAt
    s0 ds0 v) (hs1 : HasDerivAt s1 ds1 v) (hs2 : HasDerivAt s2 ds2 v) (hxmg2M1 : HasDerivAt xmg2M1 ((1 / 2) *
    dr1 + (1 / 2) * ds2) v) (pxmg2M1 : 0 < xmg2M1 v) (hxti4M1 : HasDerivAt xti4M1 ((-(1) / 2) * ds0 + (-(1) / 2)
    * ds1 + (-(1) / 2) * ds2) v) (pxti4M1 : 0 < xti4M1 v) (hxmg2M2 : HasDerivAt xmg2M2 ((1 / 4) * dr1 + (-(1) /
    4) * ds2) v) (pxmg2M2 : 0 < xmg2M2 v) (hxti4M2 : HasDerivAt xti4M2 ((1 / 2) * dr0 + (1 / 2) * dr1 + (1 / 4)
    * ds0 + (1 / 4) * ds1 + (1 / 4) * ds2) v) (pxti4M2 : 0 < xti4M2 v) :
    HasDerivAt (fun v => DGDS2 (t v) (r0 v) (r1 v) (s0 v) (s1 v) (s2 v) (xmg2M1 v) (xti4M1 v) (xmg2M2 v) (xti4M2 v))
    (((D2GDR0S2 (t v) (xti4M2 v)) * dr0 + (D2GDR1S2 (t v) (xmg2M1 v) (xmg2M2 v) (xti4M2 v)) * dr1) + ((D2GDS2DT
    (xmg2M1 v) (xti4M1 v) (xmg2M2 v) (xti4M2 v)) * dt + D2GDS2DP * dp) + ((D2GDS0S2 (t v) (xti4M1 v) (xti4M2 v))
    * ds0 + (D2GDS1S2 (t v) (xti4M1 v) (xti4M2 v)) * ds1 + (D2GDS2S2 (t v) (xmg2M1 v) (xti4M1 v) (xmg2M2 v)
    (xti4M2 v)) * ds2)) v := by
  have nxmg2M1 := pxmg2M1.ne'
  have nxti4M1 := pxti4M1.ne'
  have nxmg2M2 := pxmg2M2.ne'
  have nxti4M2 := pxti4M2.ne'
  try simp only [GS3, GX2S3, GX3S3, GS1S3, GS2S3, GS3S3, DGDS2, D2GDS2DT, D2GDS2DP, D2GDR0S2, D2GDR1S2, D2GDS0S2, D2GDS1S2, D2GDS2S2, zero_mul, mul_zero, add_zero, zero_add, sub_zero]
  refine HasDerivAt.congr_deriv (by hdq) ?_
  ring

lemma c_DGDT {t p r0 r1 s0 s1 s2 xfe2M1 xmg2M1 xti4M1 xfe3M1 xfe2M2 xmg2M2 xti4M2 xfe3M2 : ℝ → ℝ} {v dt dp dr0 dr1 ds0
    ds1 ds2 : ℝ} (ht : HasDerivAt t dt v) (hp : HasDerivAt p dp v) (hr0 : HasDerivAt r0 dr0 v) (hr1 : HasDerivAt
    r1 dr1 v) (hs0 : HasDerivAt s0 ds0 v) (hs1 : HasDerivAt s1 ds1 v) (hs2 : HasDerivAt s2 ds2 v) (hxfe2M1 :
    HasDerivAt xfe2M1 ((1 / 2) * dr0 + (1 / 2) * ds1) v) (pxfe2M1 : 0 < xfe2M1 v) (hxmg2M1 : HasDerivAt xmg2M1
    ((1 / 2) * dr1 + (1 / 2) * ds2) v) (pxmg2M1 : 0 < xmg2M1 v) (hxti4M1 : HasDerivAt xti4M1 ((-(1) / 2) * ds0 +
    (-(1) / 2) * ds1 + (-(1) / 2) * ds2) v) (pxti4M1 : 0 < xti4M1 v) (hxfe3M1 : HasDerivAt xfe3M1 ((-(1) / 2) *
    dr0 + (-(1) / 2) * dr1 + (1 / 2) * ds0) v) (pxfe3M1 : 0 < xfe3M1 v) (hxfe2M2 : HasDerivAt xfe2M2 ((1 / 4) *
    dr0 + (-(1) / 4) * ds1) v) (pxfe2M2 : 0 < xfe2M2 v) (hxmg2M2 : HasDerivAt xmg2M2 ((1 / 4) * dr1 + (-(1) / 4)
    * ds2) v) (pxmg2M2 : 0 < xmg2M2 v) (hxti4M2 : HasDerivAt xti4M2 ((1 / 2) * dr0 + (1 / 2) * dr1 + (1 / 4) *
    ds0 + (1 / 4) * ds1 + (1 / 4) * ds2) v) (pxti4M2 : 0 < xti4M2 v) (hxfe3M2 : HasDerivAt xfe3M2 ((-(3) / 4) *
    dr0 + (-(3) / 4) * dr1 + (-(1) / 4) * ds0) v) (pxfe3M2 : 0 < xfe3M2 v) :
    HasDerivAt (fun v => DGDT (xfe2M1 v) (xmg2M1 v) (xti4M1 v) (xfe3M1 v) (xfe2M2 v) (xmg2M2 v) (xti4M2 v) (xfe3M2 v))
    (((D2GDR0DT (xfe2M1 v) (xfe3M1 v) (xfe2M2 v) (xti4M2 v) (xfe3M2 v)) * dr0 + (D2GDR1DT (xmg2M1 v) (xfe3M1 v)
    (xmg2M2 v) (xti4M2 v) (xfe3M2 v)) * dr1) + (D2GDT2 * dt + D2GDTDP * dp) + ((D2GDS0DT (xti4M1 v) (xfe3M1 v)
    (xti4M2 v) (xfe3M2 v)) * ds0 + (D2GDS1DT (xfe2M1 v) (xti4M1 v) (xfe2M2 v) (xti4M2 v)) * ds1 + (D2GDS2DT
    (xmg2M1 v) (xti4M1 v) (xmg2M2 v) (xti4M2 v)) * ds2)) v := by
  have nxfe2M1 := pxfe2M1.ne'
  have nxmg2M1 := pxmg2M1.ne'
  have nxti4M1 := pxti4M1.ne'
  have nxfe3M1 := pxfe3M1.ne'
  have nxfe2M2 := pxfe2M2.ne'
  have nxmg2M2 := pxmg2M2.ne'
  have nxti4M2 := pxti4M2.ne'
  have nxfe3M2 := pxfe3M2.ne'
  try simp only [S, DGDT, D2GDT2, D2GDTDP, D2GDR0DT, D2GDR1DT, D2GDS0DT, D2GDS1DT, D2GDS2DT, zero_mul, mul_zero, add_zero, zero_add, sub_zero]
  refine HasDerivAt.congr_deriv (by hdq) ?_
  ring

lemma c_DGDP {t p r0 r1 s0 s1 s2 : ℝ → ℝ} {v dt dp dr0 dr1 ds0 ds1 ds2 : ℝ} (ht : HasDerivAt t dt v) (hp : HasDerivAt p
    dp v) (hr0 : HasDerivAt r0 dr0 v) (hr1 : HasDerivAt r1 dr1 v) (hs0 : HasDerivAt s0 ds0 v) (hs1 : HasDerivAt
    s1 ds1 v) (hs2 : HasDerivAt s2 ds2 v) :
    HasDerivAt (fun v => DGDP)
    ((D2GDR0DP * dr0 + D2GDR1DP * dr1) + (D2GDTDP * dt + D2GDP2 * dp) + (D2GDS0DP * ds0 + D2GDS1DP * ds1 +
    D2GDS2DP * ds2)) v := by
  try simp only [DGDP, D2GDTDP, D2GDP2, D2GDR0DP, D2GDR1DP, D2GDS0DP, D2GDS1DP, D2GDS2DP, zero_mul, mul_zero, add_zero, zero_add, sub_zero]
  refine HasDerivAt.congr_deriv (by hdq) ?_
  ring

lemma c_D2GDR0R0 {t p r0 r1 s0 s1 s2 xfe2M1 xfe3M1 xfe2M2 xti4M2 xfe3M2 : ℝ → ℝ} {v dt dp dr0 dr1 ds0 ds1 ds2 : ℝ} (ht :
    HasDerivAt t dt v) (hp : HasDerivAt p dp v) (hr0 : HasDerivAt r0 dr0 v) (hr1 : HasDerivAt r1 dr1 v) (hs0 :
    HasDerivAt s0 ds0 v) (hs1 : HasDerivAt s1 ds1 v) (hs2 : HasDerivAt s2 ds2 v) (hxfe2M1 : HasDerivAt xfe2M1
    ((1 / 2) * dr0 + (1 / 2) * ds1) v) (pxfe2M1 : 0 < xfe2M1 v) (hxfe3M1 : HasDerivAt xfe3M1 ((-(1) / 2) * dr0 +
    (-(1) / 2) * dr1 + (1 / 2) * ds0) v) (pxfe3M1 : 0 < xfe3M1 v) (hxfe2M2 : HasDerivAt xfe2M2 ((1 / 4) * dr0 +
    (-(1) / 4) * ds1) v) (pxfe2M2 : 0 < xfe2M2 v) (hxti4M2 : HasDerivAt xti4M2 ((1 / 2) * dr0 + (1 / 2) * dr1 +
    (1 / 4) * ds0 + (1 / 4) * ds1 + (1 / 4) * ds2) v) (pxti4M2 : 0 < xti4M2 v) (hxfe3M2 : HasDerivAt xfe3M2
    ((-(3) / 4) * dr0 + (-(3) / 4) * dr1 + (-(1) / 4) * ds0) v) (pxfe3M2 : 0 < xfe3M2 v) :
    HasDerivAt (fun v => D2GDR0R0 (t v) (xfe2M1 v) (xfe3M1 v) (xfe2M2 v) (xti4M2 v) (xfe3M2 v))
    (((D3GDR0R0R0 (t v) (xfe2M1 v) (xfe3M1 v) (xfe2M2 v) (xti4M2 v) (xfe3M2 v)) * dr0 + (D3GDR0R0R1 (t v) (xfe3M1
    v) (xti4M2 v) (xfe3M2 v)) * dr1) + ((D3GDR0R0DT (xfe2M1 v) (xfe3M1 v) (xfe2M2 v) (xti4M2 v) (xfe3M2 v)) * dt
    + D3GDR0R0DP * dp) + ((D3GDR0R0S0 (t v) (xfe3M1 v) (xti4M2 v) (xfe3M2 v)) * ds0 + (D3GDR0R0S1 (t v) (xfe2M1
    v) (xfe2M2 v) (xti4M2 v)) * ds1 + (D3GDR0R0S2 (t v) (xti4M2 v)) * ds2)) v := by
  have nxfe2M1 := pxfe2M1.ne'
  have nxfe3M1 := pxfe3M1.ne'
  have nxfe2M2 := pxfe2M2.ne'
  have nxti4M2 := pxti4M2.ne'
  have nxfe3M2 := pxfe3M2.ne'
  try simp only [GX2X2, D2GDR0R0, D3GDR0R0DT, D3GDR0R0DP, D3GDR0R0R0, D3GDR0R0R1, D3GDR0R0S0, D3GDR0R0S1, D3GDR0R0S2, zero_mul, mul_zero, add_zero, zero_add, sub_zero]
  refine HasDerivAt.congr_deriv (by hdq) ?_
  ring

lemma c_D2GDR0R1 {t p r0 r1 s0 s1 s2 xfe3M1 xti4M2 xfe3M2 : ℝ → ℝ} {v dt dp dr0 dr1 ds0 ds1 ds2 : ℝ} (ht : HasDerivAt t dt v)
    (hp : HasDerivAt p dp v) (hr0 : HasDerivAt r0 dr0 v) (hr1 : HasDerivAt r1 dr1 v) (hs0 : HasDerivAt s0 ds0 v)
    (hs1 : HasDerivAt s1 ds1 v) (hs2 : HasDerivAt s2 ds2 v) (hxfe3M1 : HasDerivAt xfe3M1 ((-(1) / 2) * dr0 +
    (-(1) / 2) * dr1 + (1 / 2) * ds0) v) (pxfe3M1 : 0 < xfe3M1 v) (hxti4M2 : HasDerivAt xti4M2 ((1 / 2) * dr0 +
    (1 / 2) * dr1 + (1 / 4) * ds0 + (1 / 4) * ds1 + (1 / 4) * ds2) v) (pxti4M2 : 0 < xti4M2 v) (hxfe3M2 :
    HasDerivAt xfe3M2 ((-(3) / 4) * dr0 + (-(3) / 4) * dr1 + (-(1) / 4) * ds0) v) (pxfe3M2 : 0 < xfe3M2 v) :
    HasDerivAt (fun v => D2GDR0R1 (t v) (xfe3M1 v) (xti4M2 v) (xfe3M2 v))
    (((D3GDR0R0R1 (t v) (xfe3M1 v) (xti4M2 v) (xfe3M2 v)) * dr0 + (D3GDR0R1R1 (t v) (xfe3M1 v) (xti4M2 v) (xfe3M2
    v)) * dr1) + ((D3GDR0R1DT (xfe3M1 v) (xti4M2 v) (xfe3M2 v)) * dt + D3GDR0R1DP * dp) + ((D3GDR0R1S0 (t v)
    (xfe3M1 v) (xti4M2 v) (xfe3M2 v)) * ds0 + (D3GDR0R1S1 (t v) (xti4M2 v)) * ds1 + (D3GDR0R1S2 (t v) (xti4M2
    v)) * ds2)) v := by
  have nxfe3M1 := pxfe3M1.ne'
  have nxti4M2 := pxti4M2.ne'
  have nxfe3M2 := pxfe3M2.ne'
  try simp only [GX2X3, D2GDR0R1, D3GDR0R1DT, D3GDR0R1DP, D3GDR0R0R1, D3GDR0R1R1, D3GDR0R1S0, D3GDR0R1S1, D3GDR0R1S2, zero_mul, mul_zero, add_zero, zero_add, sub_zero]
  refine HasDerivAt.congr_deriv (by hdq) ?_
  ring

lemma c_D2GDR0S0 {t p r0 r1 s0 s1 s2 xfe3M1 xti4M2 xfe3M2 : ℝ → ℝ} {v dt dp dr0 dr1 ds0 ds1 ds2 : ℝ} (ht : HasDerivAt t dt v)
    (hp : HasDerivAt p dp v) (hr0 : HasDerivAt r0 dr0 v) (hr1 : HasDerivAt r1 dr1 v) (hs0 : HasDerivAt s0 ds0 v)
    (hs1 : HasDerivAt s1 ds1 v) (hs2 : HasDerivAt s2 ds2 v) (hxfe3M1 : HasDerivAt xfe3M1 ((-(1) / 2) * dr0 +
    (-(1) / 2) * dr1 + (1 / 2) * ds0) v) (pxfe3M1 : 0 < xfe3M1 v) (hxti4M2 : HasDerivAt xti4M2 ((1 / 2) * dr0 +
    (1 / 2) * dr1 + (1 / 4) * ds0 + (1 / 4) * ds1 + (1 / 4) * ds2) v) (pxti4M2 : 0 < xti4M2 v) (hxfe3M2 :
    HasDerivAt xfe3M2 ((-(3) / 4) * dr0 + (-(3) / 4) * dr1 + (-(1) / 4) * ds0) v) (pxfe3M2 : 0 < xfe3M2 v) :
    HasDerivAt (fun v => D2GDR0S0 (t v) (xfe3M1 v) (xti4M2 v) (xfe3M2 v))
    (((D3GDR0R0S0 (t v) (xfe3M1 v) (xti4M2 v) (xfe3M2 v)) * dr0 + (D3GDR0R1S0 (t v) (xfe3M1 v) (xti4M2 v) (xfe3M2
    v)) * dr1) + ((D3GDR0S0DT (xfe3M1 v) (xti4M2 v) (xfe3M2 v)) * dt + D3GDR0S0DP * dp) + ((D3GDR0S0S0 (t v)
    (xfe3M1 v) (xti4M2 v) (xfe3M2 v)) * ds0 + (D3GDR0S0S1 (t v) (xti4M2 v)) * ds1 + (D3GDR0S0S2 (t v) (xti4M2
    v)) * ds2)) v := by
  have nxfe3M1 := pxfe3M1.ne'
  have nxti4M2 := pxti4M2.ne'
  have nxfe3M2 := pxfe3M2.ne'
  try simp only [GX2S1, D2GDR0S0, D3GDR0S0DT, D3GDR0S0DP, D3GDR0R0S0, D3GDR0R1S0, D3GDR0S0S0, D3GDR0S0S1, D3GDR0S0S2, zero_mul, mul_zero, add_zero, zero_add, sub_zero]
  refine HasDerivAt.congr_deriv (by hdq) ?_
  ring

lemma c_D2GDR0S1 {t p r0 r1 s0 s1 s2 xfe2M1 xfe2M2 xti4M2 : ℝ → ℝ} {v dt dp dr0 dr1 ds0 ds1 ds2 : ℝ} (ht : HasDerivAt t dt v)
    (hp : HasDerivAt p dp v) (hr0 : HasDerivAt r0 dr0 v) (hr1 : HasDerivAt r1 dr1 v) (hs0 : HasDerivAt s0 ds0 v)
    (hs1 : HasDerivAt s1 ds1 v) (hs2 : HasDerivAt s2 ds2 v) (hxfe2M1 : HasDerivAt xfe2M1 ((1 / 2) * dr0 + (1 /
    2) * ds1) v) (pxfe2M1 : 0 < xfe2M1 v) (hxfe2M2 : HasDerivAt xfe2M2 ((1 / 4) * dr0 + (-(1) / 4) * ds1) v)
    (pxfe2M2 : 0 < xfe2M2 v) (hxti4M2 : HasDerivAt xti4M2 ((1 / 2) * dr0 + (1 / 2) * dr1 + (1 / 4) * ds0 + (1 /
    4) * ds1 + (1 / 4) * ds2) v) (pxti4M2 : 0 < xti4M2 v) :
    HasDerivAt (fun v => D2GDR0S1 (t v) (xfe2M1 v) (xfe2M2 v) (xti4M2 v))
    (((D3GDR0R0S1 (t v) (xfe2M1 v) (xfe2M2 v) (xti4M2 v)) * dr0 + (D3GDR0R1S1 (t v) (xti4M2 v)) * dr1) +
    ((D3GDR0S1DT (xfe2M1 v) (xfe2M2 v) (xti4M2 v)) * dt + D3GDR0S1DP * dp) + ((D3GDR0S0S1 (t v) (xti4M2 v)) *
    ds0 + (D3GDR0S1S1 (t v) (xfe2M1 v) (xfe2M2 v) (xti4M2 v)) * ds1 + (D3GDR0S1S2 (t v) (xti4M2 v)) * ds2)) v := by
  have nxfe2M1 := pxfe2M1.ne'
  have nxfe2M2 := pxfe2M2.ne'
  have nxti4M2 := pxti4M2.ne'
  try simp only [GX2S2, D2GDR0S1, D3GDR0S1DT, D3GDR0S1DP, D3GDR0R0S1, D3GDR0R1S1, D3GDR0S0S1, D3GDR0S1S1, D3GDR0S1S2, zero_mul, mul_zero, add_zero, zero_add, sub_zero]
  refine HasDerivAt.congr_deriv (by hdq) ?_
  ring

lemma c_D2GDR0S2 {t p r0 r1 s0 s1 s2 xti4M2 : ℝ → ℝ} {v dt dp dr0 dr1 ds0 ds1 ds2 : ℝ} (ht : HasDerivAt t dt v) (hp :
    HasDerivAt p dp v) (hr0 : HasDerivAt r0 dr0 v) (hr1 : HasDerivAt r1 dr1 v) (hs0 : HasDerivAt s0 ds0 v) (hs1
    : HasDerivAt s1 ds1 v) (hs2 : HasDerivAt s2 ds2 v) (hxti4M2 : HasDerivAt xti4M2 ((1 / 2) * dr0 + (1 / 2) *
    dr1 + (1 / 4) * ds0 + (1 / 4) * ds1 + (1 / 4) * ds2) v) (pxti4M2 : 0 < xti4M2 v) :
    HasDerivAt (fun v => D2GDR0S2 (t v) (xti4M2 v))
    (((D3GDR0R0S2 (t v) (xti4M2 v)) * dr0 + (D3GDR0R1S2 (t v) (xti4M2 v)) * dr1) + ((D3GDR0S2DT (xti4M2 v)) * dt
    + D3GDR0S2DP * dp) + ((D3GDR0S0S2 (t v) (xti4M2 v)) * ds0 + (D3GDR0S1S2 (t v) (xti4M2 v)) * ds1 +
    (D3GDR0S2S2 (t v) (xti4M2 v)) * ds2)) v := by
  have nxti4M2 := pxti4M2.ne'
  try simp only [GX2S3, D2GDR0S2, D3GDR0S2DT, D3GDR0S2DP, D3GDR0R0S2, D3GDR0R1S2, D3GDR0S0S2, D3GDR0S1S2, D3GDR0S2S2, zero_mul, mul_zero, add_zero, zero_add, sub_zero]
  refine HasDerivAt.congr_deriv (by hdq) ?_
  ring

lemma c_D2GDR0DT {t p r0 r1 s0 s1 s2 xfe2M1 xfe3M1 xfe2M2 xti4M2 xfe3M2 : ℝ → ℝ} {v dt dp dr0 dr1 ds0 ds1 ds2 : ℝ} (ht :
    HasDerivAt t dt v) (hp : HasDerivAt p dp v) (hr0 : HasDerivAt r0 dr0 v) (hr1 : HasDerivAt r1 dr1 v) (hs0 :
    HasDerivAt s0 ds0 v) (hs1 : HasDerivAt s1 ds1 v) (hs2 : HasDerivAt s2 ds2 v) (hxfe2M1 : HasDerivAt xfe2M1
    ((1 / 2) * dr0 + (1 / 2) * ds1) v) (pxfe2M1 : 0 < xfe2M1 v) (hxfe3M1 : HasDerivAt xfe3M1 ((-(1) / 2) * dr0 +
    (-(1) / 2) * dr1 + (1 / 2) * ds0) v) (pxfe3M1 : 0 < xfe3M1 v) (hxfe2M2 : HasDerivAt xfe2M2 ((1 / 4) * dr0 +
    (-(1) / 4) * ds1) v) (pxfe2M2 : 0 < xfe2M2 v) (hxti4M2 : HasDerivAt xti4M2 ((1 / 2) * dr0 + (1 / 2) * dr1 +
    (1 / 4) * ds0 + (1 / 4) * ds1 + (1 / 4) * ds2) v) (pxti4M2 : 0 < xti4M2 v) (hxfe3M2 : HasDerivAt xfe3M2
    ((-(3) / 4) * dr0 + (-(3) / 4) * dr1 + (-(1) / 4) * ds0) v) (pxfe3M2 : 0 < xfe3M2 v) :
    HasDerivAt (fun v => D2GDR0DT (xfe2M1 v) (xfe3M1 v) (xfe2M2 v) (xti4M2 v) (xfe3M2 v))
    (((D3GDR0R0DT (xfe2M1 v) (xfe3M1 v) (xfe2M2 v) (xti4M2 v) (xfe3M2 v)) * dr0 + (D3GDR0R1DT (xfe3M1 v) (xti4M2
    v) (xfe3M2 v)) * dr1) + (D3GDR0DT2 * dt + D3GDR0DTDP * dp) + ((D3GDR0S0DT (xfe3M1 v) (xti4M2 v) (xfe3M2 v))
    * ds0 + (D3GDR0S1DT (xfe2M1 v) (xfe2M2 v) (xti4M2 v)) * ds1 + (D3GDR0S2DT (xti4M2 v)) * ds2)) v := by
  have nxfe2M1 := pxfe2M1.ne'
  have nxfe3M1 := pxfe3M1.ne'
  have nxfe2M2 := pxfe2M2.ne'
  have nxti4M2 := pxti4M2.ne'
  have nxfe3M2 := pxfe3M2.ne'
  try simp only [D2GDR0DT, D3GDR0DT2, D3GDR0DTDP, D3GDR0R0DT, D3GDR0R1DT, D3GDR0S0DT, D3GDR0S1DT, D3GDR0S2DT, zero_mul, mul_zero, add_zero, zero_add, sub_zero]
  refine HasDerivAt.congr_deriv (by hdq) ?_
  ring

lemma c_D2GDR0DP {t p r0 r1 s0 s1 s2 : ℝ → ℝ} {v dt dp dr0 dr1 ds0 ds1 ds2 : ℝ} (ht : HasDerivAt t dt v) (hp : HasDerivAt p
    dp v) (hr0 : HasDerivAt r0 dr0 v) (hr1 : HasDerivAt r1 dr1 v) (hs0 : HasDerivAt s0 ds0 v) (hs1 : HasDerivAt
    s1 ds1 v) (hs2 : HasDerivAt s2 ds2 v) :
    HasDerivAt (fun v => D2GDR0DP)
    ((D3GDR0R0DP * dr0 + D3GDR0R1DP * dr1) + (D3GDR0DTDP * dt + D3GDR0DP2 * dp) + (D3GDR0S0DP * ds0 + D3GDR0S1DP
    * ds1 + D3GDR0S2DP * ds2)) v := by
  try simp only [D2GDR0DP, D3GDR0DTDP, D3GDR0DP2, D3GDR0R0DP, D3GDR0R1DP, D3GDR0S0DP, D3GDR0S1DP, D3GDR0S2DP, zero_mul, mul_zero, add_zero, zero_add, sub_zero]
  refine HasDerivAt.congr_deriv (by hdq) ?_
  ring

lemma c_D2GDR1R1 {t p r0 r1 s0 s1 s2 xmg2M1 xfe3M1 xmg2M2 xti4M2 xfe3M2 : ℝ → ℝ} {v dt dp dr0 dr1 ds0 ds1 ds2 : ℝ} (ht :
    HasDerivAt t dt v) (hp : HasDerivAt p dp v) (hr0 : HasDerivAt r0 dr0 v) (hr1 : HasDerivAt r1 dr1 v) (hs0 :
    HasDerivAt s0 ds0 v) (hs1 : HasDerivAt s1 ds1 v) (hs2 : HasDerivAt s2 ds2 v) (hxmg2M1 : HasDerivAt xmg2M1
    ((1 / 2) * dr1 + (1 / 2) * ds2) v) (pxmg2M1 : 0 < xmg2M1 v) (hxfe3M1 : HasDerivAt xfe3M1 ((-(1) / 2) * dr0 +
    (-(1) / 2) * dr1 + (1 / 2) * ds0) v) (pxfe3M1 : 0 < xfe3M1 v) (hxmg2M2 : HasDerivAt xmg2M2 ((1 / 4) * dr1 +
    (-(1) / 4) * ds2) v) (pxmg2M2 : 0 < xmg2M2 v) (hxti4M2 : HasDerivAt xti4M2 ((1 / 2) * dr0 + (1 / 2) * dr1 +
    (1 / 4) * ds0 + (1 / 4) * ds1 + (1 / 4) * ds2) v) (pxti4M2 : 0 < xti4M2 v) (hxfe3M2 : HasDerivAt xfe3M2
    ((-(3) / 4) * dr0 + (-(3) / 4) * dr1 + (-(1) / 4) * ds0) v) (pxfe3M2 : 0 < xfe3M2 v) :
    HasDerivAt (fun v => D2GDR1R1 (t v) (xmg2M1 v) (xfe3M1 v) (xmg2M2 v) (xti4M2 v) (xfe3M2 v))
    (((D3GDR0R1R1 (t v) (xfe3M1 v) (xti4M2 v) (xfe3M2 v)) * dr0 + (D3GDR1R1R1 (t v) (xmg2M1 v) (xfe3M1 v) (xmg2M2
    v) (xti4M2 v) (xfe3M2 v)) * dr1) + ((D3GDR1R1DT (xmg2M1 v) (xfe3M1 v) (xmg2M2 v) (xti4M2 v) (xfe3M2 v)) * dt
    + D3GDR1R1DP * dp) + ((D3GDR1R1S0 (t v) (xfe3M1 v) (xti4M2 v) (xfe3M2 v)) * ds0 + (D3GDR1R1S1 (t v) (xti4M2
    v)) * ds1 + (D3GDR1R1S2 (t v) (xmg2M1 v) (xmg2M2 v) (xti4M2 v)) * ds2)) v := by
  have nxmg2M1 := pxmg2M1.ne'
  have nxfe3M1 := pxfe3M1.ne'
  have nxmg2M2 := pxmg2M2.ne'
  have nxti4M2 := pxti4M2.ne'
  have nxfe3M2 := pxfe3M2.ne'
  try simp only [GX3X3, D2GDR1R1, D3GDR1R1DT, D3GDR1R1DP, D3GDR0R1R1, D3GDR1R1R1, D3GDR1R1S0, D3GDR1R1S1, D3GDR1R1S2, zero_mul, mul_zero, add_zero, zero_add, sub_zero]
  refine HasDerivAt.congr_deriv (by hdq) ?_
  ring

lemma c_D2GDR1S0 {t p r0 r1 s0 s1 s2 xfe3M1 xti4M2 xfe3M2 : ℝ → ℝ} {v dt dp dr0 dr1 ds0 ds1 ds2 : ℝ} (ht : HasDerivAt t dt v)
    (hp : HasDerivAt p dp v) (hr0 : HasDerivAt r0 dr0 v) (hr1 : HasDerivAt r1 dr1 v) (hs0 : HasDerivAt s0 ds0 v)
    (hs1 : HasDerivAt s1 ds1 v) (hs2 : HasDerivAt s2 ds2 v) (hxfe3M1 : HasDerivAt xfe3M1 ((-(1) / 2) * dr0 +
    (-(1) / 2) * dr1 + (1 / 2) * ds0) v) (pxfe3M1 : 0 < xfe3M1 v) (hxti4M2 : HasDerivAt xti4M2 ((1 / 2) * dr0 +
    (1 / 2) * dr1 + (1 / 4) * ds0 + (1 / 4) * ds1 + (1 / 4) * ds2) v) (pxti4M2 : 0 < xti4M2 v) (hxfe3M2 :
    HasDerivAt xfe3M2 ((-(3) / 4) * dr0 + (-(3) / 4) * dr1 + (-(1) / 4) * ds0) v) (pxfe3M2 : 0 < xfe3M2 v) :
    HasDerivAt (fun v => D2GDR1S0 (t v) (xfe3M1 v) (xti4M2 v) (xfe3M2 v))
    (((D3GDR0R1S0 (t v) (xfe3M1 v) (xti4M2 v) (xfe3M2 v)) * dr0 + (D3GDR1R1S0 (t v) (xfe3M1 v) (xti4M2 v) (xfe3M2
    v)) * dr1) + ((D3GDR1S0DT (xfe3M1 v) (xti4M2 v) (xfe3M2 v)) * dt + D3GDR1S0DP * dp) + ((D3GDR1S0S0 (t v)
    (xfe3M1 v) (xti4M2 v) (xfe3M2 v)) * ds0 + (D3GDR1S0S1 (t v) (xti4M2 v)) * ds1 + (D3GDR1S0S2 (t v) (xti4M2
    v)) * ds2)) v := by
  have nxfe3M1 := pxfe3M1.ne'
  have nxti4M2 := pxti4M2.ne'
  have nxfe3M2 := pxfe3M2.ne'
  try simp only [GX3S1, D2GDR1S0, D3GDR1S0DT, D3GDR1S0DP, D3GDR0R1S0, D3GDR1R1S0, D3GDR1S0S0, D3GDR1S0S1, D3GDR1S0S2, zero_mul, mul_zero, add_zero, zero_add, sub_zero]
  refine HasDerivAt.congr_deriv (by hdq) ?_
  ring

lemma c_D2GDR1S1 {t p r0 r1 s0 s1 s2 xti4M2 : ℝ → ℝ} {v dt dp dr0 dr1 ds0 ds1 ds2 : ℝ} (ht : HasDerivAt t dt v) (hp :
    HasDerivAt p dp v) (hr0 : HasDerivAt r0 dr0 v) (hr1 : HasDerivAt r1 dr1 v) (hs0 : HasDerivAt s0 ds0 v) (hs1
    : HasDerivAt s1 ds1 v) (hs2 : HasDerivAt s2 ds2 v) (hxti4M2 : HasDerivAt xti4M2 ((1 / 2) * dr0 + (1 / 2) *
    dr1 + (1 / 4) * ds0 + (1 / 4) * ds1 + (1 / 4) * ds2) v) (pxti4M2 : 0 < xti4M2 v) :
    HasDerivAt (fun v => D2GDR1S1 (t v) (xti4M2 v))
    (((D3GDR0R1S1 (t v) (xti4M2 v)) * dr0 + (D3GDR1R1S1 (t v) (xti4M2 v)) * dr1) + ((D3GDR1S1DT (xti4M2 v)) * dt
    + D3GDR1S1DP * dp) + ((D3GDR1S0S1 (t v) (xti4M2 v)) * ds0 + (D3GDR1S1S1 (t v) (xti4M2 v)) * ds1 +
    (D3GDR1S1S2 (t v) (xti4M2 v)) * ds2)) v := by
  have nxti4M2 := pxti4M2.ne'
  try simp only [GX3S2, D2GDR1S1, D3GDR1S1DT, D3GDR1S1DP, D3GDR0R1S1, D3GDR1R1S1, D3GDR1S0S1, D3GDR1S1S1, D3GDR1S1S2, zero_mul, mul_zero, add_zero, zero_add, sub_zero]
  refine HasDerivAt.congr_deriv (by hdq) ?_
  ring

lemma c_D2GDR1S2 {t p r0 r1 s0 s1 s2 xmg2M1 xmg2M2 xti4M2 : ℝ → ℝ} {v dt dp dr0 dr1 ds0 ds1 ds2 : ℝ} (ht : HasDerivAt t dt v)
    (hp : HasDerivAt p dp v) (hr0 : HasDerivAt r0 dr0 v) (hr1 : HasDerivAt r1 dr1 v) (hs0 : HasDerivAt s0 ds0 v)
    (hs1 : HasDerivAt s1 ds1 v) (hs2 : HasDerivAt s2 ds2 v) (hxmg2M1 : HasDerivAt xmg2M1 ((1 / 2) * dr1 + (1 /
    2) * ds2) v) (pxmg2M1 : 0 < xmg2M1 v) (hxmg2M2 : HasDerivAt xmg2M2 ((1 / 4) * dr1 + (-(1) / 4) * ds2) v)
    (pxmg2M2 : 0 < xmg2M2 v) (hxti4M2 : HasDerivAt xti4M2 ((1 / 2) * dr0 + (1 / 2) * dr1 + (1 / 4) * ds0 + (1 /
    4) * ds1 + (1 / 4) * ds2) v) (pxti4M2 : 0 < xti4M2 v) :
    HasDerivAt (fun v => D2GDR1S2 (t v) (xmg2M1 v) (xmg2M2 v) (xti4M2 v))
    (((D3GDR0R1S2 (t v) (xti4M2 v)) * dr0 + (D3GDR1R1S2 (t v) (xmg2M1 v) (xmg2M2 v) (xti4M2 v)) * dr1) +
    ((D3GDR1S2DT (xmg2M1 v) (xmg2M2 v) (xti4M2 v)) * dt + D3GDR1S2DP * dp) + ((D3GDR1S0S2 (t v) (xti4M2 v)) *
    ds0 + (D3GDR1S1S2 (t v) (xti4M2 v)) * ds1 + (D3GDR1S2S2 (t v) (xmg2M1 v) (xmg2M2 v) (xti4M2 v)) * ds2)) v := by
  have nxmg2M1 := pxmg2M1.ne'
  have nxmg2M2 := pxmg2M2.ne'
  have nxti4M2 := pxti4M2.ne'
  try simp only [GX3S3, D2GDR1S2, D3GDR1S2DT, D3GDR1S2DP, D3GDR0R1S2, D3GDR1R1S2, D3GDR1S0S2, D3GDR1S1S2, D3GDR1S2S2, zero_mul, mul_zero, add_zero, zero_add, sub_zero]
  refine HasDerivAt.congr_deriv (by hdq) ?_
  ring

lemma c_D2GDR1DT {t p r0 r1 s0 s1 s2 xmg2M1 xfe3M1 xmg2M2 xti4M2 xfe3M2 : ℝ → ℝ} {v dt dp dr0 dr1 ds0 ds1 ds2 : ℝ} (ht :
    HasDerivAt t dt v) (hp : HasDerivAt p dp v) (hr0 : HasDerivAt r0 dr0 v) (hr1 : HasDerivAt r1 dr1 v) (hs0 :
    HasDerivAt s0 ds0 v) (hs1 : HasDerivAt s1 ds1 v) (hs2 : HasDerivAt s2 ds2 v) (hxmg2M1 : HasDerivAt xmg2M1
    ((1 / 2) * dr1 + (1 / 2) * ds2) v) (pxmg2M1 : 0 < xmg2M1 v) (hxfe3M1 : HasDerivAt xfe3M1 ((-(1) / 2) * dr0 +
    (-(1) / 2) * dr1 + (1 / 2) * ds0) v) (pxfe3M1 : 0 < xfe3M1 v) (hxmg2M2 : HasDerivAt xmg2M2 ((1 / 4) * dr1 +
    (-(1) / 4) * ds2) v) (pxmg2M2 : 0 < xmg2M2 v) (hxti4M2 : HasDerivAt xti4M2 ((1 / 2) * dr0 + (1 / 2) * dr1 +
    (1 / 4) * ds0 + (1 / 4) * ds1 + (1 / 4) * ds2) v) (pxti4M2 : 0 < xti4M2 v) (hxfe3M2 : HasDerivAt xfe3M2
    ((-(3) / 4) * dr0 + (-(3) / 4) * dr1 + (-(1) / 4) * ds0) v) (pxfe3M2 : 0 < xfe3M2 v) :
    HasDerivAt (fun v => D2GDR1DT (xmg2M1 v) (xfe3M1 v) (xmg2M2 v) (xti4M2 v) (xfe3M2 v))
    (((D3GDR0R1DT (xfe3M1 v) (xti4M2 v) (xfe3M2 v)) * dr0 + (D3GDR1R1DT (xmg2M1 v) (xfe3M1 v) (xmg2M2 v) (xti4M2
    v) (xfe3M2 v)) * dr1) + (D3GDR1DT2 * dt + D3GDR1DTDP * dp) + ((D3GDR1S0DT (xfe3M1 v) (xti4M2 v) (xfe3M2 v))
    * ds0 + (D3GDR1S1DT (xti4M2 v)) * ds1 + (D3GDR1S2DT (xmg2M1 v) (xmg2M2 v) (xti4M2 v)) * ds2)) v := by
  have nxmg2M1 := pxmg2M1.ne'
  have nxfe3M1 := pxfe3M1.ne'
  have nxmg2M2 := pxmg2M2.ne'
  have nxti4M2 := pxti4M2.ne'
  have nxfe3M2 := pxfe3M2.ne'
  try simp only [D2GDR1DT, D3GDR1DT2, D3GDR1DTDP, D3GDR0R1DT, D3GDR1R1DT, D3GDR1S0DT, D3GDR1S1DT, D3GDR1S2DT, zero_mul, mul_zero, add_zero, zero_add, sub_zero]
  refine HasDerivAt.congr_deriv (by hdq) ?_
  ring

lemma c_D2GDR1DP {t p r0 r1 s0 s1 s2 : ℝ → ℝ} {v dt dp dr0 dr1 ds0 ds1 ds2 : ℝ} (ht : HasDerivAt t dt v) (hp : HasDerivAt p
    dp v) (hr0 : HasDerivAt r0 dr0 v) (hr1 : HasDerivAt r1 dr1 v) (hs0 : HasDerivAt s0 ds0 v) (hs1 : HasDerivAt
    s1 ds1 v) (hs2 : HasDerivAt s2 ds2 v) :
    HasDerivAt (fun v => D2GDR1DP)
    ((D3GDR0R1DP * dr0 + D3GDR1R1DP * dr1) + (D3GDR1DTDP * dt + D3GDR1DP2 * dp) + (D3GDR1S0DP * ds0 + D3GDR1S1DP
    * ds1 + D3GDR1S2DP * ds2)) v := by
  try simp only [D2GDR1DP, D3GDR1DTDP, D3GDR1DP2, D3GDR0R1DP, D3GDR1R1DP, D3GDR1S0DP, D3GDR1S1DP, D3GDR1S2DP, zero_mul, mul_zero, add_zero, zero_add, sub_zero]
  refine HasDerivAt.congr_deriv (by hdq) ?_
  ring

lemma c_D2GDS0S0 {t p r0 r1 s0 s1 s2 xti4M1 xfe3M1 xti4M2 xfe3M2 : ℝ → ℝ} {v dt dp dr0 dr1 ds0 ds1 ds2 : ℝ} (ht : HasDerivAt
    t dt v) (hp : HasDerivAt p dp v) (hr0 : HasDerivAt r0 dr0 v) (hr1 : HasDerivAt r1 dr1 v) (hs0 : HasDerivAt
    s0 ds0 v) (hs1 : HasDerivAt s1 ds1 v) (hs2 : HasDerivAt s2 ds2 v) (hxti4M1 : HasDerivAt xti4M1 ((-(1) / 2) *
    ds0 + (-(1) / 2) * ds1 + (-(1) / 2) * ds2) v) (pxti4M1 : 0 < xti4M1 v) (hxfe3M1 : HasDerivAt xfe3M1 ((-(1) /
    2) * dr0 + (-(1) / 2) * dr1 + (1 / 2) * ds0) v) (pxfe3M1 : 0 < xfe3M1 v) (hxti4M2 : HasDerivAt xti4M2 ((1 /
    2) * dr0 + (1 / 2) * dr1 + (1 / 4) * ds0 + (1 / 4) * ds1 + (1 / 4) * ds2) v) (pxti4M2 : 0 < xti4M2 v)
    (hxfe3M2 : HasDerivAt xfe3M2 ((-(3) / 4) * dr0 + (-(3) / 4) * dr1 + (-(1) / 4) * ds0) v) (pxfe3M2 : 0 <
    xfe3M2 v) :
    HasDerivAt (fun v => D2GDS0S0 (t v) (xti4M1 v) (xfe3M1 v) (xti4M2 v) (xfe3M2 v))
    (((D3GDR0S0S0 (t v) (xfe3M1 v) (xti4M2 v) (xfe3M2 v)) * dr0 + (D3GDR1S0S0 (t v) (xfe3M1 v) (xti4M2 v) (xfe3M2
    v)) * dr1) + ((D3GDS0S0DT (xti4M1 v) (xfe3M1 v) (xti4M2 v) (xfe3M2 v)) * dt + D3GDS0S0DP * dp) +
    ((D3GDS0S0S0 (t v) (xti4M1 v) (xfe3M1 v) (xti4M2 v) (xfe3M2 v)) * ds0 + (D3GDS0S0S1 (t v) (xti4M1 v) (xti4M2
    v)) * ds1 + (D3GDS0S0S2 (t v) (xti4M1 v) (xti4M2 v)) * ds2)) v := by
  have nxti4M1 := pxti4M1.ne'
  have nxfe3M1 := pxfe3M1.ne'
  have nxti4M2 := pxti4M2.ne'
  have nxfe3M2 := pxfe3M2.ne'
  try simp only [GS1S1, D2GDS0S0, D3GDS0S0DT, D3GDS0S0DP, D3GDR0S0S0, D3GDR1S0S0, D3GDS0S0S0, D3GDS0S0S1, D3GDS0S0S2, zero_mul, mul_zero, add_zero, zero_add, sub_zero]
  refine HasDerivAt.congr_deriv (by hdq) ?_
  ring

lemma c_D2GDS0S1 {t p r0 r1 s0 s1 s2 xti4M1 xti4M2 : ℝ → ℝ} {v dt dp dr0 dr1 ds0 ds1 ds2 : ℝ} (ht : HasDerivAt t dt v) (hp :
    HasDerivAt p dp v) (hr0 : HasDerivAt r0 dr0 v) (hr1 : HasDerivAt r1 dr1 v) (hs0 : HasDerivAt s0 ds0 v) (hs1
    : HasDerivAt s1 ds1 v) (hs2 : HasDerivAt s2 ds2 v) (hxti4M1 : HasDerivAt xti4M1 ((-(1) / 2) * ds0 + (-(1) /
    2) * ds1 + (-(1) / 2) * ds2) v) (pxti4M1 : 0 < xti4M1 v) (hxti4M2 : HasDerivAt xti4M2 ((1 / 2) * dr0 + (1 /
    2) * dr1 + (1 / 4) * ds0 + (1 / 4) * ds1 + (1 / 4) * ds2) v) (pxti4M2 : 0 < xti4M2 v) :
    HasDerivAt (fun v => D2GDS0S1 (t v) (xti4M1 v) (xti4M2 v))
    (((D3GDR0S0S1 (t v) (xti4M2 v)) * dr0 + (D3GDR1S0S1 (t v) (xti4M2 v)) * dr1) + ((D3GDS0S1DT (xti4M1 v)
    (xti4M2 v)) * dt + D3GDS0S1DP * dp) + ((D3GDS0S0S1 (t v) (xti4M1 v) (xti4M2 v)) * ds0 + (D3GDS0S1S1 (t v)
    (xti4M1 v) (xti4M2 v)) * ds1 + (D3GDS0S1S2 (t v) (xti4M1 v) (xti4M2 v)) * ds2)) v := by
  have nxti4M1 := pxti4M1.ne'
  have nxti4M2 := pxti4M2.ne'
  try simp only [GS1S2, D2GDS0S1, D3GDS0S1DT, D3GDS0S1DP, D3GDR0S0S1, D3GDR1S0S1, D3GDS0S0S1, D3GDS0S1S1, D3GDS0S1S2, zero_mul, mul_zero, add_zero, zero_add, sub_zero]
  refine HasDerivAt.congr_deriv (by hdq) ?_
  ring

lemma c_D2GDS0S2 {t p r0 r1 s0 s1 s2 xti4M1 xti4M2 : ℝ → ℝ} {v dt dp dr0 dr1 ds0 ds1 ds2 : ℝ} (ht : HasDerivAt t dt v) (hp :
    HasDerivAt p dp v) (hr0 : HasDerivAt r0 dr0 v) (hr1 : HasDerivAt r1 dr1 v) (hs0 : HasDerivAt s0 ds0 v) (hs1
    : HasDerivAt s1 ds1 v) (hs2 : HasDerivAt s2 ds2 v) (hxti4M1 : HasDerivAt xti4M1 ((-(1) / 2) * ds0 + (-(1) /
    2) * ds1 + (-(1) / 2) * ds2) v) (pxti4M1 : 0 < xti4M1 v) (hxti4M2 : HasDerivAt xti4M2 ((1 / 2) * dr0 + (1 /
    2) * dr1 + (1 / 4) * ds0 + (1 / 4) * ds1 + (1 / 4) * ds2) v) (pxti4M2 : 0 < xti4M2 v) :
    HasDerivAt (fun v => D2GDS0S2 (t v) (xti4M1 v) (xti4M2 v))
    (((D3GDR0S0S2 (t v) (xti4M2 v)) * dr0 + (D3GDR1S0S2 (t v) (xti4M2 v)) * dr1) + ((D3GDS0S2DT (xti4M1 v)
    (xti4M2 v)) * dt + D3GDS0S2DP * dp) + ((D3GDS0S0S2 (t v) (xti4M1 v) (xti4M2 v)) * ds0 + (D3GDS0S1S2 (t v)
    (xti4M1 v) (xti4M2 v)) * ds1 + (D3GDS0S2S2 (t v) (xti4M1 v) (xti4M2 v)) * ds2)) v := by
  have nxti4M1 := pxti4M1.ne'
  have nxti4M2 := pxti4M2.ne'
  try simp only [GS1S3, D2GDS0S2, D3GDS0S2DT, D3GDS0S2DP, D3GDR0S0S2, D3GDR1S0S2, D3GDS0S0S2, D3GDS0S1S2, D3GDS0S2S2, zero_mul, mul_zero, add_zero, zero_add, sub_zero]
  refine HasDerivAt.congr_deriv (by hdq) ?_
  ring

lemma c_D2GDS0DT {t p r0 r1 s0 s1 s2 xti4M1 xfe3M1 xti4M2 xfe3M2 : ℝ → ℝ} {v dt dp dr0 dr1 ds0 ds1 ds2 : ℝ} (ht : HasDerivAt
    t dt v) (hp : HasDerivAt p dp v) (hr0 : HasDerivAt r0 dr0 v) (hr1 : HasDerivAt r1 dr1 v) (hs0 : HasDerivAt
    s0 ds0 v) (hs1 : HasDerivAt s1 ds1 v) (hs2 : HasDerivAt s2 ds2 v) (hxti4M1 : HasDerivAt xti4M1 ((-(1) / 2) *
    ds0 + (-(1) / 2) * ds1 + (-(1) / 2) * ds2) v) (pxti4M1 : 0 < xti4M1 v) (hxfe3M1 : HasDerivAt xfe3M1 ((-(1) /
    2) * dr0 + (-(1) / 2) * dr1 + (1 / 2) * ds0) v) (pxfe3M1 : 0 < xfe3M1 v) (hxti4M2 : HasDerivAt xti4M2 ((1 /
    2) * dr0 + (1 / 2) * dr1 + (1 / 4) * ds0 + (1 / 4) * ds1 + (1 / 4) * ds2) v) (pxti4M2 : 0 < xti4M2 v)
    (hxfe3M2 : HasDerivAt xfe3M2 ((-(3) / 4) * dr0 + (-(3) / 4) * dr1 + (-(1) / 4) * ds0) v) (pxfe3M2 : 0 <
    xfe3M2 v) :
    HasDerivAt (fun v => D2GDS0DT (xti4M1 v) (xfe3M1 v) (xti4M2 v) (xfe3M2 v))
    (((D3GDR0S0DT (xfe3M1 v) (xti4M2 v) (xfe3M2 v)) * dr0 + (D3GDR1S0DT (xfe3M1 v) (xti4M2 v) (xfe3M2 v)) * dr1)
    + (D3GDS0DT2 * dt + D3GDS0DTDP * dp) + ((D3GDS0S0DT (xti4M1 v) (xfe3M1 v) (xti4M2 v) (xfe3M2 v)) * ds0 +
    (D3GDS0S1DT (xti4M1 v) (xti4M2 v)) * ds1 + (D3GDS0S2DT (xti4M1 v) (xti4M2 v)) * ds2)) v := by
  have nxti4M1 := pxti4M1.ne'
  have nxfe3M1 := pxfe3M1.ne'
  have nxti4M2 := pxti4M2.ne'
  have nxfe3M2 := pxfe3M2.ne'
  try simp only [D2GDS0DT, D3GDS0DT2, D3GDS0DTDP, D3GDR0S0DT, D3GDR1S0DT, D3GDS0S0DT, D3GDS0S1DT, D3GDS0S2DT, zero_mul, mul_zero, add_zero, zero_add, sub_zero]
  refine HasDerivAt.congr_deriv (by hdq) ?_
  ring

lemma c_D2GDS0DP {t p r0 r1 s0 s1 s2 : ℝ → ℝ} {v dt dp dr0 dr1 ds0 ds1 ds2 : ℝ} (ht : HasDerivAt t dt v) (hp : HasDerivAt p
    dp v) (hr0 : HasDerivAt r0 dr0 v) (hr1 : HasDerivAt r1 dr1 v) (hs0 : HasDerivAt s0 ds0 v) (hs1 : HasDerivAt
    s1 ds1 v) (hs2 : HasDerivAt s2 ds2 v) :
    HasDerivAt (fun v => D2GDS0DP)
    ((D3GDR0S0DP * dr0 + D3GDR1S0DP * dr1) + (D3GDS0DTDP * dt + D3GDS0DP2 * dp) + (D3GDS0S0DP * ds0 + D3GDS0S1DP
    * ds1 + D3GDS0S2DP * ds2)) v := by
  try simp only [D2GDS0DP, D3GDS0DTDP, D3GDS0DP2, D3GDR0S0DP, D3GDR1S0DP, D3GDS0S0DP, D3GDS0S1DP, D3GDS0S2DP, zero_mul, mul_zero, add_zero, zero_add, sub_zero]
  refine HasDerivAt.congr_deriv (by hdq) ?_
  ring

lemma c_D2GDS1S1 {t p r0 r1 s0 s1 s2 xfe2M1 xti4M1 xfe2M2 xti4M2 : ℝ → ℝ} {v dt dp dr0 dr1 ds0 ds1 ds2 : ℝ} (ht : HasDerivAt
    t dt v) (hp : HasDerivAt p dp v) (hr0 : HasDerivAt r0 dr0 v) (hr1 : HasDerivAt r1 dr1 v) (hs0 : HasDerivAt
    s0 ds0 v) (hs1 : HasDerivAt s1 ds1 v) (hs2 : HasDerivAt s2 ds2 v) (hxfe2M1 : HasDerivAt xfe2M1 ((1 / 2) *
    dr0 + (1 / 2) * ds1) v) (pxfe2M1 : 0 < xfe2M1 v) (hxti4M1 : HasDerivAt xti4M1 ((-(1) / 2) * ds0 + (-(1) / 2)
    * ds1 + (-(1) / 2) * ds2) v) (pxti4M1 : 0 < xti4M1 v) (hxfe2M2 : HasDerivAt xfe2M2 ((1 / 4) * dr0 + (-(1) /
    4) * ds1) v) (pxfe2M2 : 0 < xfe2M2 v) (hxti4M2 : HasDerivAt xti4M2 ((1 / 2) * dr0 + (1 / 2) * dr1 + (1 / 4)
    * ds0 + (1 / 4) * ds1 + (1 / 4) * ds2) v) (pxti4M2 : 0 < xti4M2 v) :
    HasDerivAt (fun v => D2GDS1S1 (t v) (xfe2M1 v) (xti4M1 v) (xfe2M2 v) (xti4M2 v))
    (((D3GDR0S1S1 (t v) (xfe2M1 v) (xfe2M2 v) (xti4M2 v)) * dr0 + (D3GDR1S1S1 (t v) (xti4M2 v)) * dr1) +
    ((D3GDS1S1DT (xfe2M1 v) (xti4M1 v) (xfe2M2 v) (xti4M2 v)) * dt + D3GDS1S1DP * dp) + ((D3GDS0S1S1 (t v)
    (xti4M1 v) (xti4M2 v)) * ds0 + (D3GDS1S1S1 (t v) (xfe2M1 v) (xti4M1 v) (xfe2M2 v) (xti4M2 v)) * ds1 +
    (D3GDS1S1S2 (t v) (xti4M1 v) (xti4M2 v)) * ds2)) v := by
  have nxfe2M1 := pxfe2M1.ne'
  have nxti4M1 := pxti4M1.ne'
  have nxfe2M2 := pxfe2M2.ne'
  have nxti4M2 := pxti4M2.ne'
  try simp only [GS2S2, D2GDS1S1, D3GDS1S1DT, D3GDS1S1DP, D3GDR0S1S1, D3GDR1S1S1, D3GDS0S1S1, D3GDS1S1S1, D3GDS1S1S2, zero_mul, mul_zero, add_zero, zero_add, sub_zero]
  refine HasDerivAt.congr_deriv (by hdq) ?_
  ring

lemma c_D2GDS1S2 {t p r0 r1 s0 s1 s2 xti4M1 xti4M2 : ℝ → ℝ} {v dt dp dr0 dr1 ds0 ds1 ds2 : ℝ} (ht : HasDerivAt t dt v) (hp :
    HasDerivAt p dp v) (hr0 : HasDerivAt r0 dr0 v) (hr1 : HasDerivAt r1 dr1 v) (hs0 : HasDerivAt s0 ds0 v) (hs1
    : HasDerivAt s1 ds1 v) (hs2 : HasDerivAt s2 ds2 v) (hxti4M1 : HasDerivAt xti4M1 ((-(1) / 2) * ds0 + (-(1) /
    2) * ds1 + (-(1) / 2) * ds2) v) (pxti4M1 : 0 < xti4M1 v) (hxti4M2 : HasDerivAt xti4M2 ((1 / 2) * dr0 + (1 /
    2) * dr1 + (1 / 4) * ds0 + (1 / 4) * ds1 + (1 / 4) * ds2) v) (pxti4M2 : 0 < xti4M2 v) :
    HasDerivAt (fun v => D2GDS1S2 (t v) (xti4M1 v) (xti4M2 v))
    (((D3GDR0S1S2 (t v) (xti4M2 v)) * dr0 + (D3GDR1S1S2 (t v) (xti4M2 v)) * dr1) + ((D3GDS1S2DT (xti4M1 v)
    (xti4M2 v)) * dt + D3GDS1S2DP * dp) + ((D3GDS0S1S2 (t v) (xti4M1 v) (xti4M2 v)) * ds0 + (D3GDS1S1S2 (t v)
    (xti4M1 v) (xti4M2 v)) * ds1 + (D3GDS1S2S2 (t v) (xti4M1 v) (xti4M2 v)) * ds2)) v := by
  have nxti4M1 := pxti4M1.ne'
  have nxti4M2 := pxti4M2.ne'
  try simp only [GS2S3, D2GDS1S2, D3GDS1S2DT, D3GDS1S2DP, D3GDR0S1S2, D3GDR1S1S2, D3GDS0S1S2, D3GDS1S1S2, D3GDS1S2S2, zero_mul, mul_zero, add_zero, zero_add, sub_zero]
  refine HasDerivAt.congr_deriv (by hdq) ?_
  ring

lemma c_D2GDS1DT {t p r0 r1 s0 s1 s2 xfe2M1 xti4M1 xfe2M2 xti4M2 : ℝ → ℝ} {v dt dp dr0 dr1 ds0 ds1 ds2 : ℝ} (ht : HasDerivAt
    t dt v) (hp : HasDerivAt p dp v) (hr0 : HasDerivAt r0 dr0 v) (hr1 : HasDerivAt r1 dr1 v) (hs0 : HasDerivAt
    s0 ds0 v) (hs1 : HasDerivAt s1 ds1 v) (hs2 : HasDerivAt s2 ds2 v) (hxfe2M1 : HasDerivAt xfe2M1 ((1 / 2) *
    dr0 + (1 / 2) * ds1) v) (pxfe2M1 : 0 < xfe2M1 v) (hxti4M1 : HasDerivAt xti4M1 ((-(1) / 2) * ds0 + (-(1) / 2)
    * ds1 + (-(1) / 2) * ds2) v) (pxti4M1 : 0 < xti4M1 v) (hxfe2M2 : HasDerivAt xfe2M2 ((1 / 4) * dr0 + (-(1) /
    4) * ds1) v) (pxfe2M2 : 0 < xfe2M2 v) (hxti4M2 : HasDerivAt xti4M2 ((1 / 2) * dr0 + (1 / 2) * dr1 + (1 / 4)
    * ds0 + (1 / 4) * ds1 + (1 / 4) * ds2) v) (pxti4M2 : 0 < xti4M2 v) :
    HasDerivAt (fun v => D2GDS1DT (xfe2M1 v) (xti4M1 v) (xfe2M2 v) (xti4M2 v))
    (((D3GDR0S1DT (xfe2M1 v) (xfe2M2 v) (xti4M2 v)) * dr0 + (D3GDR1S1DT (xti4M2 v)) * dr1) + (D3GDS1DT2 * dt +
    D3GDS1DTDP * dp) + ((D3GDS0S1DT (xti4M1 v) (xti4M2 v)) * ds0 + (D3GDS1S1DT (xfe2M1 v) (xti4M1 v) (xfe2M2 v)
    (xti4M2 v)) * ds1 + (D3GDS1S2DT (xti4M1 v) (xti4M2 v)) * ds2)) v := by
  have nxfe2M1 := pxfe2M1.ne'
  have nxti4M1 := pxti4M1.ne'
  have nxfe2M2 := pxfe2M2.ne'
  have nxti4M2 := pxti4M2.ne'
  try simp only [D2GDS1DT, D3GDS1DT2, D3GDS1DTDP, D3GDR0S1DT, D3GDR1S1DT, D3GDS0S1DT, D3GDS1S1DT, D3GDS1S2DT, zero_mul, mul_zero, add_zero, zero_add, sub_zero]
  refine HasDerivAt.congr_deriv (by hdq) ?_
  ring

lemma c_D2GDS1DP {t p r0 r1 s0 s1 s2 : ℝ → ℝ} {v dt dp dr0 dr1 ds0 ds1 ds2 : ℝ} (ht : HasDerivAt t dt v) (hp : HasDerivAt p
    dp v) (hr0 : HasDerivAt r0 dr0 v) (hr1 : HasDerivAt r1 dr1 v) (hs0 : HasDerivAt s0 ds0 v) (hs1 : HasDerivAt
    s1 ds1 v) (hs2 : HasDerivAt s2 ds2 v) :
    HasDerivAt (fun v => D2GDS1DP)
    ((D3GDR0S1DP * dr0 + D3GDR1S1DP * dr1) + (D3GDS1DTDP * dt + D3GDS1DP2 * dp) + (D3GDS0S1DP * ds0 + D3GDS1S1DP
    * ds1 + D3GDS1S2DP * ds2)) v := by
  try simp only [D2GDS1DP, D3GDS1DTDP, D3GDS1DP2, D3GDR0S1DP, D3GDR1S1DP, D3GDS0S1DP, D3GDS1S1DP, D3GDS1S2DP, zero_mul, mul_zero, add_zero, zero_add, sub_zero]
  refine HasDerivAt.congr_deriv (by hdq) ?_
  ring

lemma c_D2GDS2S2 {t p r0 r1 s0 s1 s2 xmg2M1 xti4M1 xmg2M2 xti4M2 : ℝ → ℝ} {v dt dp dr0 dr1 ds0 ds1 ds2 : ℝ} (ht : HasDerivAt
    t dt v) (hp : HasDerivAt p dp v) (hr0 : HasDerivAt r0 dr0 v) (hr1 : HasDerivAt r1 dr1 v) (hs0 : HasDerivAt
    s0 ds0 v) (hs1 : HasDerivAt s1 ds1 v) (hs2 : HasDerivAt s2 ds2 v) (hxmg2M1 : HasDerivAt xmg2M1 ((1 / 2) *
    dr1 + (1 / 2) * ds2) v) (pxmg2M1 : 0 < xmg2M1 v) (hxti4M1 : HasDerivAt xti4M1 ((-(1) / 2) * ds0 + (-(1) / 2)
    * ds1 + (-(1) / 2) * ds2) v) (pxti4M1 : 0 < xti4M1 v) (hxmg2M2 : HasDerivAt xmg2M2 ((1 / 4) * dr1 + (-(1) /
    4) * ds2) v) (pxmg2M2 : 0 < xmg2M2 v) (hxti4M2 : HasDerivAt xti4M2 ((1 / 2) * dr0 + (1 / 2) * dr1 + (1 / 4)
    * ds0 + (1 / 4) * ds1 + (1 / 4) * ds2) v) (pxti4M2 : 0 < xti4M2 v) :
    HasDerivAt (fun v => D2GDS2S2 (t v) (xmg2M1 v) (xti4M1 v) (xmg2M2 v) (xti4M2 v))
    (((D3GDR0S2S2 (t v) (xti4M2 v)) * dr0 + (D3GDR1S2S2 (t v) (xmg2M1 v) (xmg2M2 v) (xti4M2 v)) * dr1) +
    ((D3GDS2S2DT (xmg2M1 v) (xti4M1 v) (xmg2M2 v) (xti4M2 v)) * dt + D3GDS2S2DP * dp) + ((D3GDS0S2S2 (t v)
    (xti4M1 v) (xti4M2 v)) * ds0 + (D3GDS1S2S2 (t v) (xti4M1 v) (xti4M2 v)) * ds1 + (D3GDS2S2S2 (t v) (xmg2M1 v)
    (xti4M1 v) (xmg2M2 v) (xti4M2 v)) * ds2)) v := by
  have nxmg2M1 := pxmg2M1.ne'
  have nxti4M1 := pxti4M1.ne'
  have nxmg2M2 := pxmg2M2.ne'
  have nxti4M2 := pxti4M2.ne'
  try simp only [GS3S3, D2GDS2S2, D3GDS2S2DT, D3GDS2S2DP, D3GDR0S2S2, D3GDR1S2S2, D3GDS0S2S2, D3GDS1S2S2, D3GDS2S2S2, zero_mul, mul_zero, add_zero, zero_add, sub_zero]
  refine HasDerivAt.congr_deriv (by hdq) ?_
  ring

lemma c_D2GDS2DT {t p r0 r1 s0 s1 s2 xmg2M1 xti4M1 xmg2M2 xti4M2 : ℝ → ℝ} {v dt dp dr0 dr1 ds0 ds1 ds2 : ℝ} (ht : HasDerivAt
    t dt v) (hp : HasDerivAt p dp v) (hr0 : HasDerivAt r0 dr0 v) (hr1 : HasDerivAt r1 dr1 v) (hs0 : HasDerivAt
    s0 ds0 v) (hs1 : HasDerivAt s1 ds1 v) (hs2 : HasDerivAt s2 ds2 v) (hxmg2M1 : HasDerivAt xmg2M1 ((1 / 2) *
    dr1 + (1 / 2) * ds2) v) (pxmg2M1 : 0 < xmg2M1 v) (hxti4M1 : HasDerivAt xti4M1 ((-(1) / 2) * ds0 + (-(1) / 2)
    * ds1 + (-(1) / 2) * ds2) v) (pxti4M1 : 0 < xti4M1 v) (hxmg2M2 : HasDerivAt xmg2M2 ((1 / 4) * dr1 + (-(1) /
    4) * ds2) v) (pxmg2M2 : 0 < xmg2M2 v) (hxti4M2 : HasDerivAt xti4M2 ((1 / 2) * dr0 + (1 / 2) * dr1 + (1 / 4)
    * ds0 + (1 / 4) * ds1 + (1 / 4) * ds2) v) (pxti4M2 : 0 < xti4M2 v) :
    HasDerivAt (fun v => D2GDS2DT (xmg2M1 v) (xti4M1 v) (xmg2M2 v) (xti4M2 v))
    (((D3GDR0S2DT (xti4M2 v)) * dr0 + (D3GDR1S2DT (xmg2M1 v) (xmg2M2 v) (xti4M2 v)) * dr1) + (D3GDS2DT2 * dt +
    D3GDS2DTDP * dp) + ((D3GDS0S2DT (xti4M1 v) (xti4M2 v)) * ds0 + (D3GDS1S2DT (xti4M1 v) (xti4M2 v)) * ds1 +
    (D3GDS2S2DT (xmg2M1 v) (xti4M1 v) (xmg2M2 v) (xti4M2 v)) * ds2)) v := by
  have nxmg2M1 := pxmg2M1.ne'
  have nxti4M1 := pxti4M1.ne'
  have nxmg2M2 := pxmg2M2.ne'
  have nxti4M2 := pxti4M2.ne'
  try simp only [D2GDS2DT, D3GDS2DT2, D3GDS2DTDP, D3GDR0S2DT, D3GDR1S2DT, D3GDS0S2DT, D3GDS1S2DT, D3GDS2S2DT, zero_mul, mul_zero, add_zero, zero_add, sub_zero]
  refine HasDerivAt.congr_deriv (by hdq) ?_
  ring

lemma c_D2GDS2DP {t p r0 r1 s0 s1 s2 : ℝ → ℝ} {v dt dp dr0 dr1 ds0 ds1 ds2 : ℝ} (ht : HasDerivAt t dt v) (hp : HasDerivAt p
    dp v) (hr0 : HasDerivAt r0 dr0 v) (hr1 : HasDerivAt r1 dr1 v) (hs0 : HasDerivAt s0 ds0 v) (hs1 : HasDerivAt
    s1 ds1 v) (hs2 : HasDerivAt s2 ds2 v) :
    HasDerivAt (fun v => D2GDS2DP)
    ((D3GDR0S2DP * dr0 + D3GDR1S2DP * dr1) + (D3GDS2DTDP * dt + D3GDS2DP2 * dp) + (D3GDS0S2DP * ds0 + D3GDS1S2DP
    * ds1 + D3GDS2S2DP * ds2)) v := by
  try simp only [D2GDS2DP, D3GDS2DTDP, D3GDS2DP2, D3GDR0S2DP, D3GDR1S2DP, D3GDS0S2DP, D3GDS1S2DP, D3GDS2S2DP, zero_mul, mul_zero, add_zero, zero_add, sub_zero]
  refine HasDerivAt.congr_deriv (by hdq) ?_
  ring

lemma c_D2GDT2 {t p r0 r1 s0 s1 s2 : ℝ → ℝ} {v dt dp dr0 dr1 ds0 ds1 ds2 : ℝ} (ht : HasDerivAt t dt v) (hp : HasDerivAt p
    dp v) (hr0 : HasDerivAt r0 dr0 v) (hr1 : HasDerivAt r1 dr1 v) (hs0 : HasDerivAt s0 ds0 v) (hs1 : HasDerivAt
    s1 ds1 v) (hs2 : HasDerivAt s2 ds2 v) :
    HasDerivAt (fun v => D2GDT2)
    ((D3GDR0DT2 * dr0 + D3GDR1DT2 * dr1) + (D3GDT3 * dt + D3GDT2DP * dp) + (D3GDS0DT2 * ds0 + D3GDS1DT2 * ds1 +
    D3GDS2DT2 * ds2)) v := by
  try simp only [D2GDT2, D3GDT3, D3GDT2DP, D3GDR0DT2, D3GDR1DT2, D3GDS0DT2, D3GDS1DT2, D3GDS2DT2, zero_mul, mul_zero, add_zero, zero_add, sub_zero]
  refine HasDerivAt.congr_deriv (by hdq) ?_
  ring

lemma c_D2GDTDP {t p r0 r1 s0 s1 s2 : ℝ → ℝ} {v dt dp dr0 dr1 ds0 ds1 ds2 : ℝ} (ht : HasDerivAt t dt v) (hp : HasDerivAt p
    dp v) (hr0 : HasDerivAt r0 dr0 v) (hr1 : HasDerivAt r1 dr1 v) (hs0 : HasDerivAt s0 ds0 v) (hs1 : HasDerivAt
    s1 ds1 v) (hs2 : HasDerivAt s2 ds2 v) :
    HasDerivAt (fun v => D2GDTDP)
    ((D3GDR0DTDP * dr0 + D3GDR1DTDP * dr1) + (D3GDT2DP * dt + D3GDTDP2 * dp) + (D3GDS0DTDP * ds0 + D3GDS1DTDP *
    ds1 + D3GDS2DTDP * ds2)) v := by
  try simp only [D2GDTDP, D3GDT2DP, D3GDTDP2, D3GDR0DTDP, D3GDR1DTDP, D3GDS0DTDP, D3GDS1DTDP, D3GDS2DTDP, zero_mul, mul_zero, add_zero, zero_add, sub_zero]
  refine HasDerivAt.congr_deriv (by hdq) ?_
  ring

lemma c_D2GDP2 {t p r0 r1 s0 s1 s2 : ℝ → ℝ} {v dt dp dr0 dr1 ds0 ds1 ds2 : ℝ} (ht : HasDerivAt t dt v) (hp : HasDerivAt p
    dp v) (hr0 : HasDerivAt r0 dr0 v) (hr1 : HasDerivAt r1 dr1 v) (hs0 : HasDerivAt s0 ds0 v) (hs1 : HasDerivAt
    s1 ds1 v) (hs2 : HasDerivAt s2 ds2 v) :
    HasDerivAt (fun v => D2GDP2)
    ((D3GDR0DP2 * dr0 + D3GDR1DP2 * dr1) + (D3GDTDP2 * dt + D3GDP3 * dp) + (D3GDS0DP2 * ds0 + D3GDS1DP2 * ds1 +
    D3GDS2DP2 * ds2)) v := by
  try simp only [D2GDP2, D3GDTDP2, D3GDP3, D3GDR0DP2, D3GDR1DP2, D3GDS0DP2, D3GDS1DP2, D3GDS2DP2, zero_mul, mul_zero, add_zero, zero_add, sub_zero]
  refine HasDerivAt.congr_deriv (by hdq) ?_
  ring

attribute [local irreducible] S H G DGDR0 DGDR1 DGDS0 DGDS1 DGDS2 DGDT D2GDR0R0 D2GDR0R1 D2GDR0S0 D2GDR0S1
    D2GDR0S2 D2GDR0DT D2GDR1R1 D2GDR1S0 D2GDR1S1 D2GDR1S2 D2GDR1DT D2GDS0S0 D2GDS0S1 D2GDS0S2 D2GDS0DT D2GDS1S1
    D2GDS1S2 D2GDS1DT D2GDS2S2 D2GDS2DT D3GDR0R0R0 D3GDR0R0R1 D3GDR0R0S0 D3GDR0R0S1 D3GDR0R0S2 D3GDR0R0DT
    D3GDR0R1R1 D3GDR0R1S0 D3GDR0R1S1 D3GDR0R1S2 D3GDR0R1DT D3GDR0S0S0 D3GDR0S0S1 D3GDR0S0S2 D3GDR0S0DT
    D3GDR0S1S1 D3GDR0S1S2 D3GDR0S1DT D3GDR0S2S2 D3GDR0S2DT D3GDR1R1R1 D3GDR1R1S0 D3GDR1R1S1 D3GDR1R1S2
    D3GDR1R1DT D3GDR1S0S0 D3GDR1S0S1 D3GDR1S0S2 D3GDR1S0DT D3GDR1S1S1 D3GDR1S1S2 D3GDR1S1DT D3GDR1S2S2
    D3GDR1S2DT D3GDS0S0S0 D3GDS0S0S1 D3GDS0S0S2 D3GDS0S0DT D3GDS0S1S1 D3GDS0S1S2 D3GDS0S1DT D3GDS0S2S2
    D3GDS0S2DT D3GDS1S1S1 D3GDS1S1S2 D3GDS1S1DT D3GDS1S2S2 D3GDS1S2DT D3GDS2S2S2 D3GDS2S2DT

lemma gr_g (y : Var 2 3 → ℝ) (hy : Dom y) :
    Gr (fun y => (tables (raw y) y).g) y ((tables (raw y) y).at1) := by
  refine Gr.of_lines ?_ fun u => ?_
  · have hp := pos y hy
    change DifferentiableAt ℝ (fun y => G (y (.inl iT)) (y (.inl (.inl 0))) (y (.inl (.inl 1))) (y (.inr 0)) (y (.inr 1)) (y (.inr 2)) (raw y 0) (raw y 1) (raw y 2) (raw y 3) (raw y 4) (raw y 5) (raw y 6) (raw y 7)) y
    have d0 := raw_diff 0 y
    have q0 := hp.1
    have n0 := q0.ne'
    have d1 := raw_diff 1 y
    have q1 := hp.2.1
    have n1 := q1.ne'
    have d2 := raw_diff 2 y
    have q2 := hp.2.2.1
    have n2 := q2.ne'
    have d3 := raw_diff 3 y
    have q3 := hp.2.2.2.1
    have n3 := q3.ne'
    have d4 := raw_diff 4 y
    have q4 := hp.2.2.2.2.1
    have n4 := q4.ne'
    have d5 := raw_diff 5 y
    have q5 := hp.2.2.2.2.2.1
    have n5 := q5.ne'
    have d6 := raw_diff 6 y
    have q6 := hp.2.2.2.2.2.2.1
    have n6 := q6.ne'
    have d7 := raw_diff 7 y
    have q7 := hp.2.2.2.2.2.2.2
    have n7 := q7.ne'
    try simp only [G0, GX2, GX3, GS1, GS2, GS3, GX2X2, GX2X3, GX2S1, GX2S2, GX2S3, GX3X3, GX3S1, GX3S2, GX3S3, GS1S1, GS1S2, GS1S3, GS2S2, GS2S3, GS3S3, H, S, G, zero_mul, mul_zero, add_zero, zero_add, sub_zero]
    ddq
  · have hp := pos y hy
    have h := c_G (hl y u ((.inl iT))) (hl y u ((.inl iP))) (hl y u ((.inl (.inl 0)))) (hl y u ((.inl (.inl
        1)))) (hl y u ((.inr 0))) (hl y u ((.inr 1))) (hl y u ((.inr 2))) (raw_line0 y u) (by
        simpa only [zero_mul, add_zero] using hp.1) (raw_line1 y u) (by simpa only [zero_mul,
        add_zero] using hp.2.1) (raw_line2 y u) (by simpa only [zero_mul, add_zero] using
        hp.2.2.1) (raw_line3 y u) (by simpa only [zero_mul, add_zero] using hp.2.2.2.1) (raw_line4
        y u) (by simpa only [zero_mul, add_zero] using hp.2.2.2.2.1) (raw_line5 y u) (by simpa
        only [zero_mul, add_zero] using hp.2.2.2.2.2.1) (raw_line6 y u) (by simpa only [zero_mul,
        add_zero] using hp.2.2.2.2.2.2.1) (raw_line7 y u) (by simpa only [zero_mul, add_zero]
        using hp.2.2.2.2.2.2.2)
    try simp only [zero_mul, add_zero] at h
    refine h.congr_deriv ?_
    rw [sum_var]; simp only [Fin.sum_univ_three, Fin.sum_univ_two]; rfl

lemma gr_dgdr_0 (y : Var 2 3 → ℝ) (hy : Dom y) :
    Gr (fun y => (tables (raw y) y).dgdr 0) y ((tables (raw y) y).at2 (.inl (.inl 0))) := by
  refine Gr.of_lines ?_ fun u => ?_
  · have hp := pos y hy
    change DifferentiableAt ℝ (fun y => DGDR0 (y (.inl iT)) (y (.inl (.inl 0))) (y (.inl (.inl 1))) (y (.inr 0)) (y (.inr 1)) (y (.inr 2)) (raw y 0) (raw y 3) (raw y 4) (raw y 6) (raw y 7)) y
    have d0 := raw_diff 0 y
    have q0 := hp.1
    have n0 := q0.ne'
    have d3 := raw_diff 3 y
    have q3 := hp.2.2.2.1
    have n3 := q3.ne'
    have d4 := raw_diff 4 y
    have q4 := hp.2.2.2.2.1
    have n4 := q4.ne'
    have d6 := raw_diff 6 y
    have q6 := hp.2.2.2.2.2.2.1
    have n6 := q6.ne'
    have d7 := raw_diff 7 y
    have q7 := hp.2.2.2.2.2.2.2
    have n7 := q7.ne'
    try simp only [GX2, GX2X2, GX2X3, GX2S1, GX2S2, GX2S3, DGDR0, zero_mul, mul_zero, add_zero, zero_add, sub_zero]
    ddq
  · have hp := pos y hy
    have h := c_DGDR0 (hl y u ((.inl iT))) (hl y u ((.inl iP))) (hl y u ((.inl (.inl 0)))) (hl y u ((.inl (.inl
        1)))) (hl y u ((.inr 0))) (hl y u ((.inr 1))) (hl y u ((.inr 2))) (raw_line0 y u) (by
        simpa only [zero_mul, add_zero] using hp.1) (raw_line3 y u) (by simpa only [zero_mul,
        add_zero] using hp.2.2.2.1) (raw_line4 y u) (by simpa only [zero_mul, add_zero] using
        hp.2.2.2.2.1) (raw_line6 y u) (by simpa only [zero_mul, add_zero] using hp.2.2.2.2.2.2.1)
        (raw_line7 y u) (by simpa only [zero_mul, add_zero] using hp.2.2.2.2.2.2.2)
    try simp only [zero_mul, add_zero] at h
    refine h.congr_deriv ?_
    rw [sum_var]; simp only [Fin.sum_univ_three, Fin.sum_univ_two]; rfl

lemma gr_dgdr_1 (y : Var 2 3 → ℝ) (hy : Dom y) :
    Gr (fun y => (tables (raw y) y).dgdr 1) y ((tables (raw y) y).at2 (.inl (.inl 1))) := by
  refine Gr.of_lines ?_ fun u => ?_
  · have hp := pos y hy
    change DifferentiableAt ℝ (fun y => DGDR1 (y (.inl iT)) (y (.inl (.inl 0))) (y (.inl (.inl 1))) (y (.inr 0)) (y (.inr 1)) (y (.inr 2)) (raw y 1) (raw y 3) (raw y 5) (raw y 6) (raw y 7)) y
    have d1 := raw_diff 1 y
    have q1 := hp.2.1
    have n1 := q1.ne'
    have d3 := raw_diff 3 y
    have q3 := hp.2.2.2.1
    have n3 := q3.ne'
    have d5 := raw_diff 5 y
    have q5 := hp.2.2.2.2.2.1
    have n5 := q5.ne'
    have d6 := raw_diff 6 y
    have q6 := hp.2.2.2.2.2.2.1
    have n6 := q6.ne'
    have d7 := raw_diff 7 y
    have q7 := hp.2.2.2.2.2.2.2
    have n7 := q7.ne'
    try simp only [GX3, GX2X3, GX3X3, GX3S1, GX3S2, GX3S3, DGDR1, zero_mul, mul_zero, add_zero, zero_add, sub_zero]
    ddq
  · have hp := pos y hy
    have h := c_DGDR1 (hl y u ((.inl iT))) (hl y u ((.inl iP))) (hl y u ((.inl (.inl 0)))) (hl y u ((.inl (.inl
        1)))) (hl y u ((.inr 0))) (hl y u ((.inr 1))) (hl y u ((.inr 2))) (raw_line1 y u) (by
        simpa only [zero_mul, add_zero] using hp.2.1) (raw_line3 y u) (by simpa only [zero_mul,
        add_zero] using hp.2.2.2.1) (raw_line5 y u) (by simpa only [zero_mul, add_zero] using
        hp.2.2.2.2.2.1) (raw_line6 y u) (by simpa only [zero_mul, add_zero] using
        hp.2.2.2.2.2.2.1) (raw_line7 y u) (by simpa only [zero_mul, add_zero] using
        hp.2.2.2.2.2.2.2)
    try simp only [zero_mul, add_zero] at h
    refine h.congr_deriv ?_
    rw [sum_var]; simp only [Fin.sum_univ_three, Fin.sum_univ_two]; rfl

lemma gr_dgds_0 (y : Var 2 3 → ℝ) (hy : Dom y) :
    Gr (fun y => (tables (raw y) y).dgds 0) y ((tables (raw y) y).at2 (.inr 0)) := by
  refine Gr.of_lines ?_ fun u => ?_
  · have hp := pos y hy
    change DifferentiableAt ℝ (fun y => DGDS0 (y (.inl iT)) (y (.inl (.inl 0))) (y (.inl (.inl 1))) (y (.inr 0)) (y (.inr 1)) (y (.inr 2)) (raw y 2) (raw y 3) (raw y 6) (raw y 7)) y
    have d2 := raw_diff 2 y
    have q2 := hp.2.2.1
    have n2 := q2.ne'
    have d3 := raw_diff 3 y
    have q3 := hp.2.2.2.1
    have n3 := q3.ne'
    have d6 := raw_diff 6 y
    have q6 := hp.2.2.2.2.2.2.1
    have n6 := q6.ne'
    have d7 := raw_diff 7 y
    have q7 := hp.2.2.2.2.2.2.2
    have n7 := q7.ne'
    try simp only [GS1, GX2S1, GX3S1, GS1S1, GS1S2, GS1S3, DGDS0, zero_mul, mul_zero, add_zero, zero_add, sub_zero]
    ddq
  · have hp := pos y hy
    have h := c_DGDS0 (hl y u ((.inl iT))) (hl y u ((.inl iP))) (hl y u ((.inl (.inl 0)))) (hl y u ((.inl (.inl
        1)))) (hl y u ((.inr 0))) (hl y u ((.inr 1))) (hl y u ((.inr 2))) (raw_line2 y u) (by
        simpa only [zero_mul, add_zero] using hp.2.2.1) (raw_line3 y u) (by simpa only [zero_mul,
        add_zero] using hp.2.2.2.1) (raw_line6 y u) (by simpa only [zero_mul, add_zero] using
        hp.2.2.2.2.2.2.1) (raw_line7 y u) (by simpa only [zero_mul, add_zero] using
        hp.2.2.2.2.2.2.2)
    try simp only [zero_mul, add_zero] at h
    refine h.congr_deriv ?_
    rw [sum_var]; simp only [Fin.sum_univ_three, Fin.sum_univ_two]; rfl

lemma gr_dgds_1 (y : Var 2 3 → ℝ) (hy : Dom y) :
    Gr (fun y => (tables (raw y) y).dgds 1) y ((tables (raw y) y).at2 (.inr 1)) := by
  refine Gr.of_lines ?_ fun u => ?_
  · have hp := pos y hy
    change DifferentiableAt ℝ (fun y => DGDS1 (y (.inl iT)) (y (.inl (.inl 0))) (y (.inl (.inl 1))) (y (.inr 0)) (y (.inr 1)) (y (.inr 2)) (raw y 0) (raw y 2) (raw y 4) (raw y 6)) y
    have d0 := raw_diff 0 y
    have q0 := hp.1
    have n0 := q0.ne'
    have d2 := raw_diff 2 y
    have q2 := hp.2.2.1
    have n2 := q2.ne'
    have d4 := raw_diff 4 y
    have q4 := hp.2.2.2.2.1
    have n4 := q4.ne'
    have d6 := raw_diff 6 y
    have q6 := hp.2.2.2.2.2.2.1
    have n6 := q6.ne'
    try simp only [GS2, GX2S2, GX3S2, GS1S2, GS2S2, GS2S3, DGDS1, zero_mul, mul_zero, add_zero, zero_add, sub_zero]
    ddq
  · have hp := pos y hy
    have h := c_DGDS1 (hl y u ((.inl iT))) (hl y u ((.inl iP))) (hl y u ((.inl (.inl 0)))) (hl y u ((.inl (.inl
        1)))) (hl y u ((.inr 0))) (hl y u ((.inr 1))) (hl y u ((.inr 2))) (raw_line0 y u) (by
        simpa only [zero_mul, add_zero] using hp.1) (raw_line2 y u) (by simpa only [zero_mul,
        add_zero] using hp.2.2.1) (raw_line4 y u) (by simpa only [zero_mul, add_zero] using
        hp.2.2.2.2.1) (raw_line6 y u) (by simpa only [zero_mul, add_zero] using hp.2.2.2.2.2.2.1)
    try simp only [zero_mul, add_zero] at h
    refine h.congr_deriv ?_
    rw [sum_var]; simp only [Fin.sum_univ_three, Fin.sum_univ_two]; rfl

lemma gr_dgds_2 (y : Var 2 3 → ℝ) (hy : Dom y) :
    Gr (fun y => (tables (raw y) y).dgds 2) y ((tables (raw y) y).at2 (.inr 2)) := by
  refine Gr.of_lines ?_ fun u => ?_
  · have hp := pos y hy
    change DifferentiableAt ℝ (fun y => DGDS2 (y (.inl iT)) (y (.inl (.inl 0))) (y (.inl (.inl 1))) (y (.inr 0)) (y (.inr 1)) (y (.inr 2)) (raw y 1) (raw y 2) (raw y 5) (raw y 6)) y
    have d1 := raw_diff 1 y
    have q1 := hp.2.1
    have n1 := q1.ne'
    have d2 := raw_diff 2 y
    have q2 := hp.2.2.1
    have n2 := q2.ne'
    have d5 := raw_diff 5 y
    have q5 := hp.2.2.2.2.2.1
    have n5 := q5.ne'
    have d6 := raw_diff 6 y
    have q6 := hp.2.2.2.2.2.2.1
    have n6 := q6.ne'
    try simp only [GS3, GX2S3, GX3S3, GS1S3, GS2S3, GS3S3, DGDS2, zero_mul, mul_zero, add_zero, zero_add, sub_zero]
    ddq
  · have hp := pos y hy
    have h := c_DGDS2 (hl y u ((.inl iT))) (hl y u ((.inl iP))) (hl y u ((.inl (.inl 0)))) (hl y u ((.inl (.inl
        1)))) (hl y u ((.inr 0))) (hl y u ((.inr 1))) (hl y u ((.inr 2))) (raw_line1 y u) (by
        simpa only [zero_mul, add_zero] using hp.2.1) (raw_line2 y u) (by simpa only [zero_mul,
        add_zero] using hp.2.2.1) (raw_line5 y u) (by simpa only [zero_mul, add_zero] using
        hp.2.2.2.2.2.1) (raw_line6 y u) (by simpa only [zero_mul, add_zero] using
        hp.2.2.2.2.2.2.1)
    try simp only [zero_mul, add_zero] at h
    refine h.congr_deriv ?_
    rw [sum_var]; simp only [Fin.sum_univ_three, Fin.sum_univ_two]; rfl

lemma gr_dgdt (y : Var 2 3 → ℝ) (hy : Dom y) :
    Gr (fun y => (tables (raw y) y).dgdt) y ((tables (raw y) y).at2 (.inl iT)) := by
  refine Gr.of_lines ?_ fun u => ?_
  · have hp := pos y hy
    change DifferentiableAt ℝ (fun y => DGDT (raw y 0) (raw y 1) (raw y 2) (raw y 3) (raw y 4) (raw y 5) (raw y 6) (raw y 7)) y
    have d0 := raw_diff 0 y
    have q0 := hp.1
    have n0 := q0.ne'
    have d1 := raw_diff 1 y
    have q1 := hp.2.1
    have n1 := q1.ne'
    have d2 := raw_diff 2 y
    have q2 := hp.2.2.1
    have n2 := q2.ne'
    have d3 := raw_diff 3 y
    have q3 := hp.2.2.2.1
    have n3 := q3.ne'
    have d4 := raw_diff 4 y
    have q4 := hp.2.2.2.2.1
    have n4 := q4.ne'
    have d5 := raw_diff 5 y
    have q5 := hp.2.2.2.2.2.1
    have n5 := q5.ne'
    have d6 := raw_diff 6 y
    have q6 := hp.2.2.2.2.2.2.1
    have n6 := q6.ne'
    have d7 := raw_diff 7 y
    have q7 := hp.2.2.2.2.2.2.2
    have n7 := q7.ne'
    try simp only [S, DGDT, zero_mul, mul_zero, add_zero, zero_add, sub_zero]
    ddq
  · have hp := pos y hy
    have h := c_DGDT (hl y u ((.inl iT))) (hl y u ((.inl iP))) (hl y u ((.inl (.inl 0)))) (hl y u ((.inl (.inl
        1)))) (hl y u ((.inr 0))) (hl y u ((.inr 1))) (hl y u ((.inr 2))) (raw_line0 y u) (by
        simpa only [zero_mul, add_zero] using hp.1) (raw_line1 y u) (by simpa only [zero_mul,
        add_zero] using hp.2.1) (raw_line2 y u) (by simpa only [zero_mul, add_zero] using
        hp.2.2.1) (raw_line3 y u) (by simpa only [zero_mul, add_zero] using hp.2.2.2.1) (raw_line4
        y u) (by simpa only [zero_mul, add_zero] using hp.2.2.2.2.1) (raw_line5 y u) (by simpa
        only [zero_mul, add_zero] using hp.2.2.2.2.2.1) (raw_line6 y u) (by simpa only [zero_mul,
        add_zero] using hp.2.2.2.2.2.2.1) (raw_line7 y u) (by simpa only [zero_mul, add_zero]
        using hp.2.2.2.2.2.2.2)
    try simp only [zero_mul, add_zero] at h
    refine h.congr_deriv ?_
    rw [sum_var]; simp only [Fin.sum_univ_three, Fin.sum_univ_two]; rfl

lemma gr_dgdp (y : Var 2 3 → ℝ) (hy : Dom y) :
    Gr (fun y => (tables (raw y) y).dgdp) y ((tables (raw y) y).at2 (.inl iP)) := by
  refine Gr.of_lines ?_ fun u => ?_
  · have hp := pos y hy
    change DifferentiableAt ℝ (fun y => DGDP) y
    try simp only [DGDP, zero_mul, mul_zero, add_zero, zero_add, sub_zero]
    ddq
  · have hp := pos y hy
    have h := c_DGDP (hl y u ((.inl iT))) (hl y u ((.inl iP))) (hl y u ((.inl (.inl 0)))) (hl y u ((.inl (.inl
        1)))) (hl y u ((.inr 0))) (hl y u ((.inr 1))) (hl y u ((.inr 2)))
    try simp only [zero_mul, add_zero] at h
    refine h.congr_deriv ?_
    rw [sum_var]; simp only [Fin.sum_univ_three, Fin.sum_univ_two]; rfl

lemma gr_d2gdr2_0_0 (y : Var 2 3 → ℝ) (hy : Dom y) :
    Gr (fun y => (tables (raw y) y).d2gdr2 0 0) y ((tables (raw y) y).at3 (.inl (.inl 0)) (.inl (.inl 0))) := by
  refine Gr.of_lines ?_ fun u => ?_
  · have hp := pos y hy
    change DifferentiableAt ℝ (fun y => D2GDR0R0 (y (.inl iT)) (raw y 0) (raw y 3) (raw y 4) (raw y 6) (raw y 7)) y
    have d0 := raw_diff 0 y
    have q0 := hp.1
    have n0 := q0.ne'
    have d3 := raw_diff 3 y
    have q3 := hp.2.2.2.1
    have n3 := q3.ne'
    have d4 := raw_diff 4 y
    have q4 := hp.2.2.2.2.1
    have n4 := q4.ne'
    have d6 := raw_diff 6 y
    have q6 := hp.2.2.2.2.2.2.1
    have n6 := q6.ne'
    have d7 := raw_diff 7 y
    have q7 := hp.2.2.2.2.2.2.2
    have n7 := q7.ne'
    try simp only [GX2X2, D2GDR0R0, zero_mul, mul_zero, add_zero, zero_add, sub_zero]
    ddq
  · have hp := pos y hy
    have h := c_D2GDR0R0 (hl y u ((.inl iT))) (hl y u ((.inl iP))) (hl y u ((.inl (.inl 0)))) (hl y u ((.inl (.inl
        1)))) (hl y u ((.inr 0))) (hl y u ((.inr 1))) (hl y u ((.inr 2))) (raw_line0 y u) (by
        simpa only [zero_mul, add_zero] using hp.1) (raw_line3 y u) (by simpa only [zero_mul,
        add_zero] using hp.2.2.2.1) (raw_line4 y u) (by simpa only [zero_mul, add_zero] using
        hp.2.2.2.2.1) (raw_line6 y u) (by simpa only [zero_mul, add_zero] using hp.2.2.2.2.2.2.1)
        (raw_line7 y u) (by simpa only [zero_mul, add_zero] using hp.2.2.2.2.2.2.2)
    try simp only [zero_mul, add_zero] at h
    refine h.congr_deriv ?_
    rw [sum_var]; simp only [Fin.sum_univ_three, Fin.sum_univ_two]; rfl

lemma gr_d2gdr2_0_1 (y : Var 2 3 → ℝ) (hy : Dom y) :
    Gr (fun y => (tables (raw y) y).d2gdr2 0 1) y ((tables (raw y) y).at3 (.inl (.inl 0)) (.inl (.inl 1))) := by
  refine Gr.of_lines ?_ fun u => ?_
  · have hp := pos y hy
    change DifferentiableAt ℝ (fun y => D2GDR0R1 (y (.inl iT)) (raw y 3) (raw y 6) (raw y 7)) y
    have d3 := raw_diff 3 y
    have q3 := hp.2.2.2.1
    have n3 := q3.ne'
    have d6 := raw_diff 6 y
    have q6 := hp.2.2.2.2.2.2.1
    have n6 := q6.ne'
    have d7 := raw_diff 7 y
    have q7 := hp.2.2.2.2.2.2.2
    have n7 := q7.ne'
    try simp only [GX2X3, D2GDR0R1, zero_mul, mul_zero, add_zero, zero_add, sub_zero]
    ddq
  · have hp := pos y hy
    have h := c_D2GDR0R1 (hl y u ((.inl iT))) (hl y u ((.inl iP))) (hl y u ((.inl (.inl 0)))) (hl y u ((.inl (.inl
        1)))) (hl y u ((.inr 0))) (hl y u ((.inr 1))) (hl y u ((.inr 2))) (raw_line3 y u) (by
        simpa only [zero_mul, add_zero] using hp.2.2.2.1) (raw_line6 y u) (by simpa only
        [zero_mul, add_zero] using hp.2.2.2.2.2.2.1) (raw_line7 y u) (by simpa only [zero_mul,
        add_zero] using hp.2.2.2.2.2.2.2)
    try simp only [zero_mul, add_zero] at h
    refine h.congr_deriv ?_
    rw [sum_var]; simp only [Fin.sum_univ_three, Fin.sum_univ_two]; rfl

lemma gr_d2gdrds_0_0 (y : Var 2 3 → ℝ) (hy : Dom y) :
    Gr (fun y => (tables (raw y) y).d2gdrds 0 0) y ((tables (raw y) y).at3 (.inl (.inl 0)) (.inr 0)) := by
  refine Gr.of_lines ?_ fun u => ?_
  · have hp := pos y hy
    change DifferentiableAt ℝ (fun y => D2GDR0S0 (y (.inl iT)) (raw y 3) (raw y 6) (raw y 7)) y
    have d3 := raw_diff 3 y
    have q3 := hp.2.2.2.1
    have n3 := q3.ne'
    have d6 := raw_diff 6 y
    have q6 := hp.2.2.2.2.2.2.1
    have n6 := q6.ne'
    have d7 := raw_diff 7 y
    have q7 := hp.2.2.2.2.2.2.2
    have n7 := q7.ne'
    try simp only [GX2S1, D2GDR0S0, zero_mul, mul_zero, add_zero, zero_add, sub_zero]
    ddq
  · have hp := pos y hy
    have h := c_D2GDR0S0 (hl y u ((.inl iT))) (hl y u ((.inl iP))) (hl y u ((.inl (.inl 0)))) (hl y u ((.inl (.inl
        1)))) (hl y u ((.inr 0))) (hl y u ((.inr 1))) (hl y u ((.inr 2))) (raw_line3 y u) (by
        simpa only [zero_mul, add_zero] using hp.2.2.2.1) (raw_line6 y u) (by simpa only
        [zero_mul, add_zero] using hp.2.2.2.2.2.2.1) (raw_line7 y u) (by simpa only [zero_mul,
        add_zero] using hp.2.2.2.2.2.2.2)
    try simp only [zero_mul, add_zero] at h
    refine h.congr_deriv ?_
    rw [sum_var]; simp only [Fin.sum_univ_three, Fin.sum_univ_two]; rfl

lemma gr_d2gdrds_0_1 (y : Var 2 3 → ℝ) (hy : Dom y) :
    Gr (fun y => (tables (raw y) y).d2gdrds 0 1) y ((tables (raw y) y).at3 (.inl (.inl 0)) (.inr 1)) := by
  refine Gr.of_lines ?_ fun u => ?_
  · have hp := pos y hy
    change DifferentiableAt ℝ (fun y => D2GDR0S1 (y (.inl iT)) (raw y 0) (raw y 4) (raw y 6)) y
    have d0 := raw_diff 0 y
    have q0 := hp.1
    have n0 := q0.ne'
    have d4 := raw_diff 4 y
    have q4 := hp.2.2.2.2.1
    have n4 := q4.ne'
    have d6 := raw_diff 6 y
    have q6 := hp.2.2.2.2.2.2.1
    have n6 := q6.ne'
    try simp only [GX2S2, D2GDR0S1, zero_mul, mul_zero, add_zero, zero_add, sub_zero]
    ddq
  · have hp := pos y hy
    have h := c_D2GDR0S1 (hl y u ((.inl iT))) (hl y u ((.inl iP))) (hl y u ((.inl (.inl 0)))) (hl y u ((.inl (.inl
        1)))) (hl y u ((.inr 0))) (hl y u ((.inr 1))) (hl y u ((.inr 2))) (raw_line0 y u) (by
        simpa only [zero_mul, add_zero] using hp.1) (raw_line4 y u) (by simpa only [zero_mul,
        add_zero] using hp.2.2.2.2.1) (raw_line6 y u) (by simpa only [zero_mul, add_zero] using
        hp.2.2.2.2.2.2.1)
    try simp only [zero_mul, add_zero] at h
    refine h.congr_deriv ?_
    rw [sum_var]; simp only [Fin.sum_univ_three, Fin.sum_univ_two]; rfl

lemma gr_d2gdrds_0_2 (y : Var 2 3 → ℝ) (hy : Dom y) :
    Gr (fun y => (tables (raw y) y).d2gdrds 0 2) y ((tables (raw y) y).at3 (.inl (.inl 0)) (.inr 2)) := by
  refine Gr.of_lines ?_ fun u => ?_
  · have hp := pos y hy
    change DifferentiableAt ℝ (fun y => D2GDR0S2 (y (.inl iT)) (raw y 6)) y
    have d6 := raw_diff 6 y
    have q6 := hp.2.2.2.2.2.2.1
    have n6 := q6.ne'
    try simp only [GX2S3, D2GDR0S2, zero_mul, mul_zero, add_zero, zero_add, sub_zero]
    ddq
  · have hp := pos y hy
    have h := c_D2GDR0S2 (hl y u ((.inl iT))) (hl y u ((.inl iP))) (hl y u ((.inl (.inl 0)))) (hl y u ((.inl (.inl
        1)))) (hl y u ((.inr 0))) (hl y u ((.inr 1))) (hl y u ((.inr 2))) (raw_line6 y u) (by
        simpa only [zero_mul, add_zero] using hp.2.2.2.2.2.2.1)
    try simp only [zero_mul, add_zero] at h
    refine h.congr_deriv ?_
    rw [sum_var]; simp only [Fin.sum_univ_three, Fin.sum_univ_two]; rfl

lemma gr_d2gdrdt_0 (y : Var 2 3 → ℝ) (hy : Dom y) :
    Gr (fun y => (tables (raw y) y).d2gdrdt 0) y ((tables (raw y) y).at3 (.inl (.inl 0)) (.inl iT)) := by
  refine Gr.of_lines ?_ fun u => ?_
  · have hp := pos y hy
    change DifferentiableAt ℝ (fun y => D2GDR0DT (raw y 0) (raw y 3) (raw y 4) (raw y 6) (raw y 7)) y
    have d0 := raw_diff 0 y
    have q0 := hp.1
    have n0 := q0.ne'
    have d3 := raw_diff 3 y
    have q3 := hp.2.2.2.1
    have n3 := q3.ne'
    have d4 := raw_diff 4 y
    have q4 := hp.2.2.2.2.1
    have n4 := q4.ne'
    have d6 := raw_diff 6 y
    have q6 := hp.2.2.2.2.2.2.1
    have n6 := q6.ne'
    have d7 := raw_diff 7 y
    have q7 := hp.2.2.2.2.2.2.2
    have n7 := q7.ne'
    try simp only [D2GDR0DT, zero_mul, mul_zero, add_zero, zero_add, sub_zero]
    ddq
  · have hp := pos y hy
    have h := c_D2GDR0DT (hl y u ((.inl iT))) (hl y u ((.inl iP))) (hl y u ((.inl (.inl 0)))) (hl y u ((.inl (.inl
        1)))) (hl y u ((.inr 0))) (hl y u ((.inr 1))) (hl y u ((.inr 2))) (raw_line0 y u) (by
        simpa only [zero_mul, add_zero] using hp.1) (raw_line3 y u) (by simpa only [zero_mul,
        add_zero] using hp.2.2.2.1) (raw_line4 y u) (by simpa only [zero_mul, add_zero] using
        hp.2.2.2.2.1) (raw_line6 y u) (by simpa only [zero_mul, add_zero] using hp.2.2.2.2.2.2.1)
        (raw_line7 y u) (by simpa only [zero_mul, add_zero] using hp.2.2.2.2.2.2.2)
    try simp only [zero_mul, add_zero] at h
    refine h.congr_deriv ?_
    rw [sum_var]; simp only [Fin.sum_univ_three, Fin.sum_univ_two]; rfl

lemma gr_d2gdrdp_0 (y : Var 2 3 → ℝ) (hy : Dom y) :
    Gr (fun y => (tables (raw y) y).d2gdrdp 0) y ((tables (raw y) y).at3 (.inl (.inl 0)) (.inl iP)) := by
  refine Gr.of_lines ?_ fun u => ?_
  · have hp := pos y hy
    change DifferentiableAt ℝ (fun y => D2GDR0DP) y
    try simp only [D2GDR0DP, zero_mul, mul_zero, add_zero, zero_add, sub_zero]
    ddq
  · have hp := pos y hy
    have h := c_D2GDR0DP (hl y u ((.inl iT))) (hl y u ((.inl iP))) (hl y u ((.inl (.inl 0)))) (hl y u ((.inl (.inl
        1)))) (hl y u ((.inr 0))) (hl y u ((.inr 1))) (hl y u ((.inr 2)))
    try simp only [zero_mul, add_zero] at h
    refine h.congr_deriv ?_
    rw [sum_var]; simp only [Fin.sum_univ_three, Fin.sum_univ_two]; rfl

lemma gr_d2gdr2_1_1 (y : Var 2 3 → ℝ) (hy : Dom y) :
    Gr (fun y => (tables (raw y) y).d2gdr2 1 1) y ((tables (raw y) y).at3 (.inl (.inl 1)) (.inl (.inl 1))) := by
  refine Gr.of_lines ?_ fun u => ?_
  · have hp := pos y hy
    change DifferentiableAt ℝ (fun y => D2GDR1R1 (y (.inl iT)) (raw y 1) (raw y 3) (raw y 5) (raw y 6) (raw y 7)) y
    have d1 := raw_diff 1 y
    have q1 := hp.2.1
    have n1 := q1.ne'
    have d3 := raw_diff 3 y
    have q3 := hp.2.2.2.1
    have n3 := q3.ne'
    have d5 := raw_diff 5 y
    have q5 := hp.2.2.2.2.2.1
    have n5 := q5.ne'
    have d6 := raw_diff 6 y
    have q6 := hp.2.2.2.2.2.2.1
    have n6 := q6.ne'
    have d7 := raw_diff 7 y
    have q7 := hp.2.2.2.2.2.2.2
    have n7 := q7.ne'
    try simp only [GX3X3, D2GDR1R1, zero_mul, mul_zero, add_zero, zero_add, sub_zero]
    ddq
  · have hp := pos y hy
    have h := c_D2GDR1R1 (hl y u ((.inl iT))) (hl y u ((.inl iP))) (hl y u ((.inl (.inl 0)))) (hl y u ((.inl (.inl
        1)))) (hl y u ((.inr 0))) (hl y u ((.inr 1))) (hl y u ((.inr 2))) (raw_line1 y u) (by
        simpa only [zero_mul, add_zero] using hp.2.1) (raw_line3 y u) (by simpa only [zero_mul,
        add_zero] using hp.2.2.2.1) (raw_line5 y u) (by simpa only [zero_mul, add_zero] using
        hp.2.2.2.2.2.1) (raw_line6 y u) (by simpa only [zero_mul, add_zero] using
        hp.2.2.2.2.2.2.1) (raw_line7 y u) (by simpa only [zero_mul, add_zero] using
        hp.2.2.2.2.2.2.2)
    try simp only [zero_mul, add_zero] at h
    refine h.congr_deriv ?_
    rw [sum_var]; simp only [Fin.sum_univ_three, Fin.sum_univ_two]; rfl

lemma gr_d2gdrds_1_0 (y : Var 2 3 → ℝ) (hy : Dom y) :
    Gr (fun y => (tables (raw y) y).d2gdrds 1 0) y ((tables (raw y) y).at3 (.inl (.inl 1)) (.inr 0)) := by
  refine Gr.of_lines ?_ fun u => ?_
  · have hp := pos y hy
    change DifferentiableAt ℝ (fun y => D2GDR1S0 (y (.inl iT)) (raw y 3) (raw y 6) (raw y 7)) y
    have d3 := raw_diff 3 y
    have q3 := hp.2.2.2.1
    have n3 := q3.ne'
    have d6 := raw_diff 6 y
    have q6 := hp.2.2.2.2.2.2.1
    have n6 := q6.ne'
    have d7 := raw_diff 7 y
    have q7 := hp.2.2.2.2.2.2.2
    have n7 := q7.ne'
    try simp only [GX3S1, D2GDR1S0, zero_mul, mul_zero, add_zero, zero_add, sub_zero]
    ddq
  · have hp := pos y hy
    have h := c_D2GDR1S0 (hl y u ((.inl iT))) (hl y u ((.inl iP))) (hl y u ((.inl (.inl 0)))) (hl y u ((.inl (.inl
        1)))) (hl y u ((.inr 0))) (hl y u ((.inr 1))) (hl y u ((.inr 2))) (raw_line3 y u) (by
        simpa only [zero_mul, add_zero] using hp.2.2.2.1) (raw_line6 y u) (by simpa only
        [zero_mul, add_zero] using hp.2.2.2.2.2.2.1) (raw_line7 y u) (by simpa only [zero_mul,
        add_zero] using hp.2.2.2.2.2.2.2)
    try simp only [zero_mul, add_zero] at h
    refine h.congr_deriv ?_
    rw [sum_var]; simp only [Fin.sum_univ_three, Fin.sum_univ_two]; rfl

lemma gr_d2gdrds_1_1 (y : Var 2 3 → ℝ) (hy : Dom y) :
    Gr (fun y => (tables (raw y) y).d2gdrds 1 1) y ((tables (raw y) y).at3 (.inl (.inl 1)) (.inr 1)) := by
  refine Gr.of_lines ?_ fun u => ?_
  · have hp := pos y hy
    change DifferentiableAt ℝ (fun y => D2GDR1S1 (y (.inl iT)) (raw y 6)) y
    have d6 := raw_diff 6 y
    have q6 := hp.2.2.2.2.2.2.1
    have n6 := q6.ne'
    try simp only [GX3S2, D2GDR1S1, zero_mul, mul_zero, add_zero, zero_add, sub_zero]
    ddq
  · have hp := pos y hy
    have h := c_D2GDR1S1 (hl y u ((.inl iT))) (hl y u ((.inl iP))) (hl y u ((.inl (.inl 0)))) (hl y u ((.inl (.inl
        1)))) (hl y u ((.inr 0))) (hl y u ((.inr 1))) (hl y u ((.inr 2))) (raw_line6 y u) (by
        simpa only [zero_mul, add_zero] using hp.2.2.2.2.2.2.1)
    try simp only [zero_mul, add_zero] at h
    refine h.congr_deriv ?_
    rw [sum_var]; simp only [Fin.sum_univ_three, Fin.sum_univ_two]; rfl

lemma gr_d2gdrds_1_2 (y : Var 2 3 → ℝ) (hy : Dom y) :
    Gr (fun y => (tables (raw y) y).d2gdrds 1 2) y ((tables (raw y) y).at3 (.inl (.inl 1)) (.inr 2)) := by
  refine Gr.of_lines ?_ fun u => ?_
  · have hp := pos y hy
    change DifferentiableAt ℝ (fun y => D2GDR1S2 (y (.inl iT)) (raw y 1) (raw y 5) (raw y 6)) y
    have d1 := raw_diff 1 y
    have q1 := hp.2.1
    have n1 := q1.ne'
    have d5 := raw_diff 5 y
    have q5 := hp.2.2.2.2.2.1
    have n5 := q5.ne'
    have d6 := raw_diff 6 y
    have q6 := hp.2.2.2.2.2.2.1
    have n6 := q6.ne'
    try simp only [GX3S3, D2GDR1S2, zero_mul, mul_zero, add_zero, zero_add, sub_zero]
    ddq
  · have hp := pos y hy
    have h := c_D2GDR1S2 (hl y u ((.inl iT))) (hl y u ((.inl iP))) (hl y u ((.inl (.inl 0)))) (hl y u ((.inl (.inl
        1)))) (hl y u ((.inr 0))) (hl y u ((.inr 1))) (hl y u ((.inr 2))) (raw_line1 y u) (by
        simpa only [zero_mul, add_zero] using hp.2.1) (raw_line5 y u) (by simpa only [zero_mul,
        add_zero] using hp.2.2.2.2.2.1) (raw_line6 y u) (by simpa only [zero_mul, add_zero] using
        hp.2.2.2.2.2.2.1)
    try simp only [zero_mul, add_zero] at h
    refine h.congr_deriv ?_
    rw [sum_var]; simp only [Fin.sum_univ_three, Fin.sum_univ_two]; rfl

lemma gr_d2gdrdt_1 (y : Var 2 3 → ℝ) (hy : Dom y) :
    Gr (fun y => (tables (raw y) y).d2gdrdt 1) y ((tables (raw y) y).at3 (.inl (.inl 1)) (.inl iT)) := by
  refine Gr.of_lines ?_ fun u => ?_
  · have hp := pos y hy
    change DifferentiableAt ℝ (fun y => D2GDR1DT (raw y 1) (raw y 3) (raw y 5) (raw y 6) (raw y 7)) y
    have d1 := raw_diff 1 y
    have q1 := hp.2.1
    have n1 := q1.ne'
    have d3 := raw_diff 3 y
    have q3 := hp.2.2.2.1
    have n3 := q3.ne'
    have d5 := raw_diff 5 y
    have q5 := hp.2.2.2.2.2.1
    have n5 := q5.ne'
    have d6 := raw_diff 6 y
    have q6 := hp.2.2.2.2.2.2.1
    have n6 := q6.ne'
    have d7 := raw_diff 7 y
    have q7 := hp.2.2.2.2.2.2.2
    have n7 := q7.ne'
    try simp only [D2GDR1DT, zero_mul, mul_zero, add_zero, zero_add, sub_zero]
    ddq
  · have hp := pos y hy
    have h := c_D2GDR1DT (hl y u ((.inl iT))) (hl y u ((.inl iP))) (hl y u ((.inl (.inl 0)))) (hl y u ((.inl (.inl
        1)))) (hl y u ((.inr 0))) (hl y u ((.inr 1))) (hl y u ((.inr 2))) (raw_line1 y u) (by
        simpa only [zero_mul, add_zero] using hp.2.1) (raw_line3 y u) (by simpa only [zero_mul,
        add_zero] using hp.2.2.2.1) (raw_line5 y u) (by simpa only [zero_mul, add_zero] using
        hp.2.2.2.2.2.1) (raw_line6 y u) (by simpa only [zero_mul, add_zero] using
        hp.2.2.2.2.2.2.1) (raw_line7 y u) (by simpa only [zero_mul, add_zero] using
        hp.2.2.2.2.2.2.2)
    try simp only [zero_mul, add_zero] at h
    refine h.congr_deriv ?_
    rw [sum_var]; simp only [Fin.sum_univ_three, Fin.sum_univ_two]; rfl

lemma gr_d2gdrdp_1 (y : Var 2 3 → ℝ) (hy : Dom y) :
    Gr (fun y => (tables (raw y) y).d2gdrdp 1) y ((tables (raw y) y).at3 (.inl (.inl 1)) (.inl iP)) := by
  refine Gr.of_lines ?_ fun u => ?_
  · have hp := pos y hy
    change DifferentiableAt ℝ (fun y => D2GDR1DP) y
    try simp only [D2GDR1DP, zero_mul, mul_zero, add_zero, zero_add, sub_zero]
    ddq
  · have hp := pos y hy
    have h := c_D2GDR1DP (hl y u ((.inl iT))) (hl y u ((.inl iP))) (hl y u ((.inl (.inl 0)))) (hl y u ((.inl (.inl
        1)))) (hl y u ((.inr 0))) (hl y u ((.inr 1))) (hl y u ((.inr 2)))
    try simp only [zero_mul, add_zero] at h
    refine h.congr_deriv ?_
    rw [sum_var]; simp only [Fin.sum_univ_three, Fin.sum_univ_two]; rfl

lemma gr_d2gds2_0_0 (y : Var 2 3 → ℝ) (hy : Dom y) :
    Gr (fun y => (tables (raw y) y).d2gds2 0 0) y ((tables (raw y) y).at3 (.inr 0) (.inr 0)) := by
  refine Gr.of_lines ?_ fun u => ?_
  · have hp := pos y hy
    change DifferentiableAt ℝ (fun y => D2GDS0S0 (y (.inl iT)) (raw y 2) (raw y 3) (raw y 6) (raw y 7)) y
    have d2 := raw_diff 2 y
    have q2 := hp.2.2.1
    have n2 := q2.ne'
    have d3 := raw_diff 3 y
    have q3 := hp.2.2.2.1
    have n3 := q3.ne'
    have d6 := raw_diff 6 y
    have q6 := hp.2.2.2.2.2.2.1
    have n6 := q6.ne'
    have d7 := raw_diff 7 y
    have q7 := hp.2.2.2.2.2.2.2
    have n7 := q7.ne'
    try simp only [GS1S1, D2GDS0S0, zero_mul, mul_zero, add_zero, zero_add, sub_zero]
    ddq
  · have hp := pos y hy
    have h := c_D2GDS0S0 (hl y u ((.inl iT))) (hl y u ((.inl iP))) (hl y u ((.inl (.inl 0)))) (hl y u ((.inl (.inl
        1)))) (hl y u ((.inr 0))) (hl y u ((.inr 1))) (hl y u ((.inr 2))) (raw_line2 y u) (by
        simpa only [zero_mul, add_zero] using hp.2.2.1) (raw_line3 y u) (by simpa only [zero_mul,
        add_zero] using hp.2.2.2.1) (raw_line6 y u) (by simpa only [zero_mul, add_zero] using
        hp.2.2.2.2.2.2.1) (raw_line7 y u) (by simpa only [zero_mul, add_zero] using
        hp.2.2.2.2.2.2.2)
    try simp only [zero_mul, add_zero] at h
    refine h.congr_deriv ?_
    rw [sum_var]; simp only [Fin.sum_univ_three, Fin.sum_univ_two]; rfl

lemma gr_d2gds2_0_1 (y : Var 2 3 → ℝ) (hy : Dom y) :
    Gr (fun y => (tables (raw y) y).d2gds2 0 1) y ((tables (raw y) y).at3 (.inr 0) (.inr 1)) := by
  refine Gr.of_lines ?_ fun u => ?_
  · have hp := pos y hy
    change DifferentiableAt ℝ (fun y => D2GDS0S1 (y (.inl iT)) (raw y 2) (raw y 6)) y
    have d2 := raw_diff 2 y
    have q2 := hp.2.2.1
    have n2 := q2.ne'
    have d6 := raw_diff 6 y
    have q6 := hp.2.2.2.2.2.2.1
    have n6 := q6.ne'
    try simp only [GS1S2, D2GDS0S1, zero_mul, mul_zero, add_zero, zero_add, sub_zero]
    ddq
  · have hp := pos y hy
    have h := c_D2GDS0S1 (hl y u ((.inl iT))) (hl y u ((.inl iP))) (hl y u ((.inl (.inl 0)))) (hl y u ((.inl (.inl
        1)))) (hl y u ((.inr 0))) (hl y u ((.inr 1))) (hl y u ((.inr 2))) (raw_line2 y u) (by
        simpa only [zero_mul, add_zero] using hp.2.2.1) (raw_line6 y u) (by simpa only [zero_mul,
        add_zero] using hp.2.2.2.2.2.2.1)
    try simp only [zero_mul, add_zero] at h
    refine h.congr_deriv ?_
    rw [sum_var]; simp only [Fin.sum_univ_three, Fin.sum_univ_two]; rfl

lemma gr_d2gds2_0_2 (y : Var 2 3 → ℝ) (hy : Dom y) :
    Gr (fun y => (tables (raw y) y).d2gds2 0 2) y ((tables (raw y) y).at3 (.inr 0) (.inr 2)) := by
  refine Gr.of_lines ?_ fun u => ?_
  · have hp := pos y hy
    change DifferentiableAt ℝ (fun y => D2GDS0S2 (y (.inl iT)) (raw y 2) (raw y 6)) y
    have d2 := raw_diff 2 y
    have q2 := hp.2.2.1
    have n2 := q2.ne'
    have d6 := raw_diff 6 y
    have q6 := hp.2.2.2.2.2.2.1
    have n6 := q6.ne'
    try simp only [GS1S3, D2GDS0S2, zero_mul, mul_zero, add_zero, zero_add, sub_zero]
    ddq
  · have hp := pos y hy
    have h := c_D2GDS0S2 (hl y u ((.inl iT))) (hl y u ((.inl iP))) (hl y u ((.inl (.inl 0)))) (hl y u ((.inl (.inl
        1)))) (hl y u ((.inr 0))) (hl y u ((.inr 1))) (hl y u ((.inr 2))) (raw_line2 y u) (by
        simpa only [zero_mul, add_zero] using hp.2.2.1) (raw_line6 y u) (by simpa only [zero_mul,
        add_zero] using hp.2.2.2.2.2.2.1)
    try simp only [zero_mul, add_zero] at h
    refine h.congr_deriv ?_
    rw [sum_var]; simp only [Fin.sum_univ_three, Fin.sum_univ_two]; rfl

lemma gr_d2gdsdt_0 (y : Var 2 3 → ℝ) (hy : Dom y) :
    Gr (fun y => (tables (raw y) y).d2gdsdt 0) y ((tables (raw y) y).at3 (.inr 0) (.inl iT)) := by
  refine Gr.of_lines ?_ fun u => ?_
  · have hp := pos y hy
    change DifferentiableAt ℝ (fun y => D2GDS0DT (raw y 2) (raw y 3) (raw y 6) (raw y 7)) y
    have d2 := raw_diff 2 y
    have q2 := hp.2.2.1
    have n2 := q2.ne'
    have d3 := raw_diff 3 y
    have q3 := hp.2.2.2.1
    have n3 := q3.ne'
    have d6 := raw_diff 6 y
    have q6 := hp.2.2.2.2.2.2.1
    have n6 := q6.ne'
    have d7 := raw_diff 7 y
    have q7 := hp.2.2.2.2.2.2.2
    have n7 := q7.ne'
    try simp only [D2GDS0DT, zero_mul, mul_zero, add_zero, zero_add, sub_zero]
    ddq
  · have hp := pos y hy
    have h := c_D2GDS0DT (hl y u ((.inl iT))) (hl y u ((.inl iP))) (hl y u ((.inl (.inl 0)))) (hl y u ((.inl (.inl
        1)))) (hl y u ((.inr 0))) (hl y u ((.inr 1))) (hl y u ((.inr 2))) (raw_line2 y u) (by
        simpa only [zero_mul, add_zero] using hp.2.2.1) (raw_line3 y u) (by simpa only [zero_mul,
        add_zero] using hp.2.2.2.1) (raw_line6 y u) (by simpa only [zero_mul, add_zero] using
        hp.2.2.2.2.2.2.1) (raw_line7 y u) (by simpa only [zero_mul, add_zero] using
        hp.2.2.2.2.2.2.2)
    try simp only [zero_mul, add_zero] at h
    refine h.congr_deriv ?_
    rw [sum_var]; simp only [Fin.sum_univ_three, Fin.sum_univ_two]; rfl

lemma gr_d2gdsdp_0 (y : Var 2 3 → ℝ) (hy : Dom y) :
    Gr (fun y => (tables (raw y) y).d2gdsdp 0) y ((tables (raw y) y).at3 (.inr 0) (.inl iP)) := by
  refine Gr.of_lines ?_ fun u => ?_
  · have hp := pos y hy
    change DifferentiableAt ℝ (fun y => D2GDS0DP) y
    try simp only [D2GDS0DP, zero_mul, mul_zero, add_zero, zero_add, sub_zero]
    ddq
  · have hp := pos y hy
    have h := c_D2GDS0DP (hl y u ((.inl iT))) (hl y u ((.inl iP))) (hl y u ((.inl (.inl 0)))) (hl y u ((.inl (.inl
        1)))) (hl y u ((.inr 0))) (hl y u ((.inr 1))) (hl y u ((.inr 2)))
    try simp only [zero_mul, add_zero] at h
    refine h.congr_deriv ?_
    rw [sum_var]; simp only [Fin.sum_univ_three, Fin.sum_univ_two]; rfl

lemma gr_d2gds2_1_1 (y : Var 2 3 → ℝ) (hy : Dom y) :
    Gr (fun y => (tables (raw y) y).d2gds2 1 1) y ((tables (raw y) y).at3 (.inr 1) (.inr 1)) := by
  refine Gr.of_lines ?_ fun u => ?_
  · have hp := pos y hy
    change DifferentiableAt ℝ (fun y => D2GDS1S1 (y (.inl iT)) (raw y 0) (raw y 2) (raw y 4) (raw y 6)) y
    have d0 := raw_diff 0 y
    have q0 := hp.1
    have n0 := q0.ne'
    have d2 := raw_diff 2 y
    have q2 := hp.2.2.1
    have n2 := q2.ne'
    have d4 := raw_diff 4 y
    have q4 := hp.2.2.2.2.1
    have n4 := q4.ne'
    have d6 := raw_diff 6 y
    have q6 := hp.2.2.2.2.2.2.1
    have n6 := q6.ne'
    try simp only [GS2S2, D2GDS1S1, zero_mul, mul_zero, add_zero, zero_add, sub_zero]
    ddq
  · have hp := pos y hy
    have h := c_D2GDS1S1 (hl y u ((.inl iT))) (hl y u ((.inl iP))) (hl y u ((.inl (.inl 0)))) (hl y u ((.inl (.inl
        1)))) (hl y u ((.inr 0))) (hl y u ((.inr 1))) (hl y u ((.inr 2))) (raw_line0 y u) (by
        simpa only [zero_mul, add_zero] using hp.1) (raw_line2 y u) (by simpa only [zero_mul,
        add_zero] using hp.2.2.1) (raw_line4 y u) (by simpa only [zero_mul, add_zero] using
        hp.2.2.2.2.1) (raw_line6 y u) (by simpa only [zero_mul, add_zero] using hp.2.2.2.2.2.2.1)
    try simp only [zero_mul, add_zero] at h
    refine h.congr_deriv ?_
    rw [sum_var]; simp only [Fin.sum_univ_three, Fin.sum_univ_two]; rfl

lemma gr_d2gds2_1_2 (y : Var 2 3 → ℝ) (hy : Dom y) :
    Gr (fun y => (tables (raw y) y).d2gds2 1 2) y ((tables (raw y) y).at3 (.inr 1) (.inr 2)) := by
  refine Gr.of_lines ?_ fun u => ?_
  · have hp := pos y hy
    change DifferentiableAt ℝ (fun y => D2GDS1S2 (y (.inl iT)) (raw y 2) (raw y 6)) y
    have d2 := raw_diff 2 y
    have q2 := hp.2.2.1
    have n2 := q2.ne'
    have d6 := raw_diff 6 y
    have q6 := hp.2.2.2.2.2.2.1
    have n6 := q6.ne'
    try simp only [GS2S3, D2GDS1S2, zero_mul, mul_zero, add_zero, zero_add, sub_zero]
    ddq
  · have hp := pos y hy
    have h := c_D2GDS1S2 (hl y u ((.inl iT))) (hl y u ((.inl iP))) (hl y u ((.inl (.inl 0)))) (hl y u ((.inl (.inl
        1)))) (hl y u ((.inr 0))) (hl y u ((.inr 1))) (hl y u ((.inr 2))) (raw_line2 y u) (by
        simpa only [zero_mul, add_zero] using hp.2.2.1) (raw_line6 y u) (by simpa only [zero_mul,
        add_zero] using hp.2.2.2.2.2.2.1)
    try simp only [zero_mul, add_zero] at h
    refine h.congr_deriv ?_
    rw [sum_var]; simp only [Fin.sum_univ_three, Fin.sum_univ_two]; rfl

lemma gr_d2gdsdt_1 (y : Var 2 3 → ℝ) (hy : Dom y) :
    Gr (fun y => (tables (raw y) y).d2gdsdt 1) y ((tables (raw y) y).at3 (.inr 1) (.inl iT)) := by
  refine Gr.of_lines ?_ fun u => ?_
  · have hp := pos y hy
    change DifferentiableAt ℝ (fun y => D2GDS1DT (raw y 0) (raw y 2) (raw y 4) (raw y 6)) y
    have d0 := raw_diff 0 y
    have q0 := hp.1
    have n0 := q0.ne'
    have d2 := raw_diff 2 y
    have q2 := hp.2.2.1
    have n2 := q2.ne'
    have d4 := raw_diff 4 y
    have q4 := hp.2.2.2.2.1
    have n4 := q4.ne'
    have d6 := raw_diff 6 y
    have q6 := hp.2.2.2.2.2.2.1
    have n6 := q6.ne'
    try simp only [D2GDS1DT, zero_mul, mul_zero, add_zero, zero_add, sub_zero]
    ddq
  · have hp := pos y hy
    have h := c_D2GDS1DT (hl y u ((.inl iT))) (hl y u ((.inl iP))) (hl y u ((.inl (.inl 0)))) (hl y u ((.inl (.inl
        1)))) (hl y u ((.inr 0))) (hl y u ((.inr 1))) (hl y u ((.inr 2))) (raw_line0 y u) (by
        simpa only [zero_mul, add_zero] using hp.1) (raw_line2 y u) (by simpa only [zero_mul,
        add_zero] using hp.2.2.1) (raw_line4 y u) (by simpa only [zero_mul, add_zero] using
        hp.2.2.2.2.1) (raw_line6 y u) (by simpa only [zero_mul, add_zero] using hp.2.2.2.2.2.2.1)
    try simp only [zero_mul, add_zero] at h
    refine h.congr_deriv ?_
    rw [sum_var]; simp only [Fin.sum_univ_three, Fin.sum_univ_two]; rfl

lemma gr_d2gdsdp_1 (y : Var 2 3 → ℝ) (hy : Dom y) :
    Gr (fun y => (tables (raw y) y).d2gdsdp 1) y ((tables (raw y) y).at3 (.inr 1) (.inl iP)) := by
  refine Gr.of_lines ?_ fun u => ?_
  · have hp := pos y hy
    change DifferentiableAt ℝ (fun y => D2GDS1DP) y
    try simp only [D2GDS1DP, zero_mul, mul_zero, add_zero, zero_add, sub_zero]
    ddq
  · have hp := pos y hy
    have h := c_D2GDS1DP (hl y u ((.inl iT))) (hl y u ((.inl iP))) (hl y u ((.inl (.inl 0)))) (hl y u ((.inl (.inl
        1)))) (hl y u ((.inr 0))) (hl y u ((.inr 1))) (hl y u ((.inr 2)))
    try simp only [zero_mul, add_zero] at h
    refine h.congr_deriv ?_
    rw [sum_var]; simp only [Fin.sum_univ_three, Fin.sum_univ_two]; rfl

lemma gr_d2gds2_2_2 (y : Var 2 3 → ℝ) (hy : Dom y) :
    Gr (fun y => (tables (raw y) y).d2gds2 2 2) y ((tables (raw y) y).at3 (.inr 2) (.inr 2)) := by
  refine Gr.of_lines ?_ fun u => ?_
  · have hp := pos y hy
    change DifferentiableAt ℝ (fun y => D2GDS2S2 (y (.inl iT)) (raw y 1) (raw y 2) (raw y 5) (raw y 6)) y
    have d1 := raw_diff 1 y
    have q1 := hp.2.1
    have n1 := q1.ne'
    have d2 := raw_diff 2 y
    have q2 := hp.2.2.1
    have n2 := q2.ne'
    have d5 := raw_diff 5 y
    have q5 := hp.2.2.2.2.2.1
    have n5 := q5.ne'
    have d6 := raw_diff 6 y
    have q6 := hp.2.2.2.2.2.2.1
    have n6 := q6.ne'
    try simp only [GS3S3, D2GDS2S2, zero_mul, mul_zero, add_zero, zero_add, sub_zero]
    ddq
  · have hp := pos y hy
    have h := c_D2GDS2S2 (hl y u ((.inl iT))) (hl y u ((.inl iP))) (hl y u ((.inl (.inl 0)))) (hl y u ((.inl (.inl
        1)))) (hl y u ((.inr 0))) (hl y u ((.inr 1))) (hl y u ((.inr 2))) (raw_line1 y u) (by
        simpa only [zero_mul, add_zero] using hp.2.1) (raw_line2 y u) (by simpa only [zero_mul,
        add_zero] using hp.2.2.1) (raw_line5 y u) (by simpa only [zero_mul, add_zero] using
        hp.2.2.2.2.2.1) (raw_line6 y u) (by simpa only [zero_mul, add_zero] using
        hp.2.2.2.2.2.2.1)
    try simp only [zero_mul, add_zero] at h
    refine h.congr_deriv ?_
    rw [sum_var]; simp only [Fin.sum_univ_three, Fin.sum_univ_two]; rfl

lemma gr_d2gdsdt_2 (y : Var 2 3 → ℝ) (hy : Dom y) :
    Gr (fun y => (tables (raw y) y).d2gdsdt 2) y ((tables (raw y) y).at3 (.inr 2) (.inl iT)) := by
  refine Gr.of_lines ?_ fun u => ?_
  · have hp := pos y hy
    change DifferentiableAt ℝ (fun y => D2GDS2DT (raw y 1) (raw y 2) (raw y 5) (raw y 6)) y
    have d1 := raw_diff 1 y
    have q1 := hp.2.1
    have n1 := q1.ne'
    have d2 := raw_diff 2 y
    have q2 := hp.2.2.1
    have n2 := q2.ne'
    have d5 := raw_diff 5 y
    have q5 := hp.2.2.2.2.2.1
    have n5 := q5.ne'
    have d6 := raw_diff 6 y
    have q6 := hp.2.2.2.2.2.2.1
    have n6 := q6.ne'
    try simp only [D2GDS2DT, zero_mul, mul_zero, add_zero, zero_add, sub_zero]
    ddq
  · have hp := pos y hy
    have h := c_D2GDS2DT (hl y u ((.inl iT))) (hl y u ((.inl iP))) (hl y u ((.inl (.inl 0)))) (hl y u ((.inl (.inl
        1)))) (hl y u ((.inr 0))) (hl y u ((.inr 1))) (hl y u ((.inr 2))) (raw_line1 y u) (by
        simpa only [zero_mul, add_zero] using hp.2.1) (raw_line2 y u) (by simpa only [zero_mul,
        add_zero] using hp.2.2.1) (raw_line5 y u) (by simpa only [zero_mul, add_zero] using
        hp.2.2.2.2.2.1) (raw_line6 y u) (by simpa only [zero_mul, add_zero] using
        hp.2.2.2.2.2.2.1)
    try simp only [zero_mul, add_zero] at h
    refine h.congr_deriv ?_
    rw [sum_var]; simp only [Fin.sum_univ_three, Fin.sum_univ_two]; rfl

lemma gr_d2gdsdp_2 (y : Var 2 3 → ℝ) (hy : Dom y) :
    Gr (fun y => (tables (raw y) y).d2gdsdp 2) y ((tables (raw y) y).at3 (.inr 2) (.inl iP)) := by
  refine Gr.of_lines ?_ fun u => ?_
  · have hp := pos y hy
    change DifferentiableAt ℝ (fun y => D2GDS2DP) y
    try simp only [D2GDS2DP, zero_mul, mul_zero, add_zero, zero_add, sub_zero]
    ddq
  · have hp := pos y hy
    have h := c_D2GDS2DP (hl y u ((.inl iT))) (hl y u ((.inl iP))) (hl y u ((.inl (.inl 0)))) (hl y u ((.inl (.inl
        1)))) (hl y u ((.inr 0))) (hl y u ((.inr 1))) (hl y u ((.inr 2)))
    try simp only [zero_mul, add_zero] at h
    refine h.congr_deriv ?_
    rw [sum_var]; simp only [Fin.sum_univ_three, Fin.sum_univ_two]; rfl

lemma gr_d2gdt2 (y : Var 2 3 → ℝ) (hy : Dom y) :
    Gr (fun y => (tables (raw y) y).d2gdt2) y ((tables (raw y) y).at3 (.inl iT) (.inl iT)) := by
  refine Gr.of_lines ?_ fun u => ?_
  · have hp := pos y hy
    change DifferentiableAt ℝ (fun y => D2GDT2) y
    try simp only [D2GDT2, zero_mul, mul_zero, add_zero, zero_add, sub_zero]
    ddq
  · have hp := pos y hy
    have h := c_D2GDT2 (hl y u ((.inl iT))) (hl y u ((.inl iP))) (hl y u ((.inl (.inl 0)))) (hl y u ((.inl (.inl
        1)))) (hl y u ((.inr 0))) (hl y u ((.inr 1))) (hl y u ((.inr 2)))
    try simp only [zero_mul, add_zero] at h
    refine h.congr_deriv ?_
    rw [sum_var]; simp only [Fin.sum_univ_three, Fin.sum_univ_two]; rfl

lemma gr_d2gdtdp (y : Var 2 3 → ℝ) (hy : Dom y) :
    Gr (fun y => (tables (raw y) y).d2gdtdp) y ((tables (raw y) y).at3 (.inl iT) (.inl iP)) := by
  refine Gr.of_lines ?_ fun u => ?_
  · have hp := pos y hy
    change DifferentiableAt ℝ (fun y => D2GDTDP) y
    try simp only [D2GDTDP, zero_mul, mul_zero, add_zero, zero_add, sub_zero]
    ddq
  · have hp := pos y hy
    have h := c_D2GDTDP (hl y u ((.inl iT))) (hl y u ((.inl iP))) (hl y u ((.inl (.inl 0)))) (hl y u ((.inl (.inl
        1)))) (hl y u ((.inr 0))) (hl y u ((.inr 1))) (hl y u ((.inr 2)))
    try simp only [zero_mul, add_zero] at h
    refine h.congr_deriv ?_
    rw [sum_var]; simp only [Fin.sum_univ_three, Fin.sum_univ_two]; rfl

lemma gr_d2gdp2 (y : Var 2 3 → ℝ) (hy : Dom y) :
    Gr (fun y => (tables (raw y) y).d2gdp2) y ((tables (raw y) y).at3 (.inl iP) (.inl iP)) := by
  refine Gr.of_lines ?_ fun u => ?_
  · have hp := pos y hy
    change DifferentiableAt ℝ (fun y => D2GDP2) y
    try simp only [D2GDP2, zero_mul, mul_zero, add_zero, zero_add, sub_zero]
    ddq
  · have hp := pos y hy
    have h := c_D2GDP2 (hl y u ((.inl iT))) (hl y u ((.inl iP))) (hl y u ((.inl (.inl 0)))) (hl y u ((.inl (.inl
        1)))) (hl y u ((.inr 0))) (hl y u ((.inr 1))) (hl y u ((.inr 2)))
    try simp only [zero_mul, add_zero] at h
    refine h.congr_deriv ?_
    rw [sum_var]; simp only [Fin.sum_univ_three, Fin.sum_univ_two]; rfl

lemma symm (x : Fin 8 → ℝ) (y : Var 2 3 → ℝ) : (tables x y).Symm := by
  constructor
  · intro i j; fin_cases i <;> fin_cases j <;> rfl
  · intro i j; fin_cases i <;> fin_cases j <;> rfl
  · intro i j k; fin_cases i <;> fin_cases j <;> fin_cases k <;> exact ⟨rfl, rfl⟩
  · intro i j k; fin_cases i <;> fin_cases j <;> fin_cases k <;> rfl
  · intro i j; fin_cases i <;> fin_cases j <;> rfl
  · intro i j; fin_cases i <;> fin_cases j <;> rfl
  · intro i j k; fin_cases i <;> fin_cases j <;> fin_cases k <;> rfl
  · intro i j k; fin_cases i <;> fin_cases j <;> fin_cases k <;> exact ⟨rfl, rfl⟩
  · intro i j; fin_cases i <;> fin_cases j <;> rfl
  · intro i j; fin_cases i <;> fin_cases j <;> rfl

lemma ok_raw : (jets fun y => tables (raw y) y).Ok Dom := by
  refine jets_ok (fun y _ => symm (raw y) y) gr_g ?_ gr_dgdt gr_dgdp ?_ ?_ ?_ ?_ ?_ ?_ ?_ ?_ gr_d2gdt2 gr_d2gdtdp gr_d2gdp2
  · intro y hy i
    fin_cases i
    · exact gr_dgdr_0 y hy
    · exact gr_dgdr_1 y hy
  · intro y hy i
    fin_cases i
    · exact gr_dgds_0 y hy
    · exact gr_dgds_1 y hy
    · exact gr_dgds_2 y hy
  · intro y hy i j
    fin_cases i <;> fin_cases j
    · exact gr_d2gdr2_0_0 y hy
    · exact gr_d2gdr2_0_1 y hy
    · exact (gr_d2gdr2_0_1 y hy).congr_d (funext fun k => ((symm (raw y) y).at3 _ _ k).1)
    · exact gr_d2gdr2_1_1 y hy
  · intro y hy i j
    fin_cases i <;> fin_cases j
    · exact gr_d2gdrds_0_0 y hy
    · exact gr_d2gdrds_0_1 y hy
    · exact gr_d2gdrds_0_2 y hy
    · exact gr_d2gdrds_1_0 y hy
    · exact gr_d2gdrds_1_1 y hy
    · exact gr_d2gdrds_1_2 y hy
  · intro y hy i
    fin_cases i
    · exact gr_d2gdrdt_0 y hy
    · exact gr_d2gdrdt_1 y hy
  · intro y hy i
    fin_cases i
    · exact gr_d2gdrdp_0 y hy
    · exact gr_d2gdrdp_1 y hy
  · intro y hy i j
    fin_cases i <;> fin_cases j
    · exact gr_d2gds2_0_0 y hy
    · exact gr_d2gds2_0_1 y hy
    · exact gr_d2gds2_0_2 y hy
    · exact (gr_d2gds2_0_1 y hy).congr_d (funext fun k => ((symm (raw y) y).at3 _ _ k).1)
    · exact gr_d2gds2_1_1 y hy
    · exact gr_d2gds2_1_2 y hy
    · exact (gr_d2gds2_0_2 y hy).congr_d (funext fun k => ((symm (raw y) y).at3 _ _ k).1)
    · exact (gr_d2gds2_1_2 y hy).congr_d (funext fun k => ((symm (raw y) y).at3 _ _ k).1)
    · exact gr_d2gds2_2_2 y hy
  · intro y hy i
    fin_cases i
    · exact gr_d2gdsdt_0 y hy
    · exact gr_d2gdsdt_1 y hy
    · exact gr_d2gdsdt_2 y hy
  · intro y hy i
    fin_cases i
    · exact gr_d2gdsdp_0 y hy
    · exact gr_d2gdsdp_1 y hy
    · exact gr_d2gdsdp_2 y hy

lemma site_eq (y : Var 2 3 → ℝ) (hy : Dom y) : site y = raw y := by
  obtain ⟨h0, h1, h2, h3, h4, h5, h6, h7⟩ := hy
  funext k; fin_cases k
  · exact keepAbove_eq h0
  · exact keepAbove_eq h1
  · exact keepAbove_eq h2
  · exact keepAbove_eq h3
  · exact keepAbove_eq h4
  · exact keepAbove_eq h5
  · exact keepAbove_eq h6
  · exact keepAbove_eq h7

lemma dom_open : IsOpen {y | Dom y} := by
  have hc : ∀ k, Continuous fun y => raw y k := fun k =>
    continuous_iff_continuousAt.2 fun y => (raw_diff k y).continuousAt
  exact (isOpen_lt continuous_const (hc 0)).inter ((isOpen_lt continuous_const (hc 1)).inter ((isOpen_lt
    continuous_const (hc 2)).inter ((isOpen_lt continuous_const (hc 3)).inter ((isOpen_lt continuous_const (hc
    4)).inter ((isOpen_lt continuous_const (hc 5)).inter ((isOpen_lt continuous_const (hc 6)).inter (isOpen_lt
    continuous_const (hc 7))))))))

/-- The arrays of ortho-oxide.c are the derivatives of its Gibbs energy to third order. -/
theorem ok : (jets macros).Ok Dom :=
  ok_congr dom_open (fun y hy => by unfold macros; rw [site_eq y hy]) ok_raw

lemma entropy_eq (y : Var 2 3 → ℝ) : (jets macros).g1 y (.inl iT) = -(macros y).s := by
  change DGDT (site y 0) (site y 1) (site y 2) (site y 3) (site y 4) (site y 5) (site y 6) (site y 7) = -(S (site y 0) (site y 1) (site y 2) (site y 3) (site y 4) (site y 5) (site y 6) (site y 7))
  simp only [DGDT]

end OrthoOxide

end

end Verif.Thermo.Ordering
