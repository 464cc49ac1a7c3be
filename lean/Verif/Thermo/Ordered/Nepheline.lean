import Verif.Thermo.OrderTables

/-!
Nepheline. Generated by /verif/tools/gen/genord.py from the macros of /repo/sources/nepheline.c: one definition per macro, with the
macros it mentions as definitions (the generator checks that this has the value of C's textual substitution).
-/

namespace Verif.Thermo.Ordering

open Magma.Thermo.Mixing (R)

noncomputable section

set_option linter.unusedVariables false
set_option linter.unnecessarySeqFocus false
set_option linter.unusedSimpArgs false
set_option linter.unusedTactic false
set_option linter.unreachableTactic false

namespace Nepheline

/-- `S4`, nepheline.c 156. -/
def S4 : ℝ :=
  -(31753 / 2000)

/-- `SEX`, nepheline.c 105. -/
def SEX : ℝ :=
  -(523 / 25)

/-- `SX`, nepheline.c 108. -/
def SX : ℝ :=
  (251 / 20)

/-- `S23`, nepheline.c 113. -/
def S23 : ℝ :=
  0

/-- `S24`, nepheline.c 114. -/
def S24 : ℝ :=
  0

/-- `S`, nepheline.c 410-417. -/
def S (r0 r1 r2 s0 xkls xvcls xnals xkss xcass xnass : ℝ) : ℝ :=
  S4 * r2 - R * (xkls * Real.log xkls + xvcls * Real.log xvcls + xnals * Real.log xnals - (1 - 3 * xcass) *
    Real.log (1 - 3 * xcass) + 3 * xkss * Real.log xkss + 3 * xcass * Real.log xcass + 3 * xnass * Real.log
    xnass) + (1 / 4) * (2 * SEX + SX) * s0 + SX * r0 * (1 - r0) + 3 / 16 * SX * s0 * s0 - (1 / 2) * SX * r0 * s0
    + (1 / 2) * (2 * S23 + SEX - SX) * r0 * r1 + (1 / 8) * (SX - SEX - 2 * S23) * r1 * s0 + (6 * S23 + 3 * SEX -
    15 * SX) * r0 * r2 / 18 + ((-9) * SEX - 3 * SX + 6 * S23 - 36 * S24) * r2 * s0 / 24

/-- `HEX`, nepheline.c 104. -/
def HEX : ℝ :=
  -(3174463 / 100)

/-- `HX`, nepheline.c 107. -/
def HX : ℝ :=
  -(694659 / 50)

/-- `WHNAKLS`, nepheline.c 116. -/
def WHNAKLS : ℝ :=
  (171544 / 25)

/-- `WHNAKSS`, nepheline.c 118. -/
def WHNAKSS : ℝ :=
  (1275074 / 25)

/-- `WVN`, nepheline.c 120. -/
def WVN : ℝ :=
  14644

/-- `H23`, nepheline.c 111. -/
def H23 : ℝ :=
  73520

/-- `WVK`, nepheline.c 121. -/
def WVK : ℝ :=
  8368

/-- `DWKNALS`, nepheline.c 133. -/
def DWKNALS : ℝ :=
  0

/-- `DWKNASS`, nepheline.c 134. -/
def DWKNASS : ℝ :=
  0

/-- `DWVNASS`, nepheline.c 135. -/
def DWVNASS : ℝ :=
  0

/-- `DWVNALS`, nepheline.c 136. -/
def DWVNALS : ℝ :=
  0

/-- `DWVKLS`, nepheline.c 137. -/
def DWVKLS : ℝ :=
  0

/-- `AWLS`, nepheline.c 138. -/
def AWLS : ℝ :=
  0

/-- `AWSS`, nepheline.c 139. -/
def AWSS : ℝ :=
  0

/-- `AWVNA`, nepheline.c 140. -/
def AWVNA : ℝ :=
  0

/-- `AWVK`, nepheline.c 141. -/
def AWVK : ℝ :=
  0

/-- `WCANA`, nepheline.c 122. -/
def WCANA : ℝ :=
  0

/-- `WCAK`, nepheline.c 123. -/
def WCAK : ℝ :=
  0

/-- `WPLAG`, nepheline.c 124. -/
def WPLAG : ℝ :=
  0

/-- `H24`, nepheline.c 112. -/
def H24 : ℝ :=
  42560

/-- `H`, nepheline.c 418-456. -/
def H (r0 r1 r2 s0 : ℝ) : ℝ :=
  (1 / 4) * (2 * HEX + HX + 3 * WHNAKLS - WHNAKSS) * s0 + (HX + WHNAKLS + WHNAKSS) * r0 * (1 - r0) + 1 / 16 *
    (3 * HX - 9 * WHNAKLS - WHNAKSS) * s0 * s0 - (1 / 2) * (HX + 3 * WHNAKLS - WHNAKSS) * r0 * s0 + WVN * r1 *
    (1 - r1) + (1 / 2) * (2 * H23 + HEX - HX - 2 * WHNAKLS - 2 * WVN + 2 * WVK) * r0 * r1 + (1 / 8) * (HX - HEX
    - 2 * H23 - 6 * WHNAKLS - 6 * WVN + 6 * WVK) * r1 * s0 + DWKNALS * (r0 * r0 + (1 / 2) * r0 * s0 - 3 * s0 *
    s0 / 16 - r0 * r0 * r0 - 5 * r0 * r0 * s0 / 4 - 3 * r0 * s0 * s0 / 16 + 9 * s0 * s0 * s0 / 64 - r0 * r1 / 3
    - r1 * s0 / 4 - 2 * r0 * r0 * r1 / 3 + r0 * r1 * r1 / 3 + r1 * r1 * s0 / 4 + 3 * r1 * s0 * s0 / 8) + DWKNASS
    * (r0 * r0 + (1 / 2) * r0 * s0 - 3 * s0 * s0 / 16 - r0 * r0 * r0 - r0 * r0 * s0 / 4 + 5 * r0 * s0 * s0 / 16
    - 3 * s0 * s0 * s0 / 64) + DWVNASS * (4 * r0 * r1 / 3 - 4 * r0 * r0 * r1 / 3 - r0 * r1 * r1 / 3 - r1 * r1 *
    s0 / 4 - r1 * s0 * s0 / 4) + DWVNALS * (2 * r0 * r1 / 3 - r1 * s0 / 2 - 2 * r0 * r0 * r1 / 3 - 2 * r0 * r1 *
    r1 / 3 + (1 / 2) * r1 * r1 * s0 + 3 * r1 * s0 * s0 / 8) + DWVKLS * (r0 * r1 / 3 + r1 * s0 / 4 + 2 * r0 * r0
    * r1 / 3 - r0 * r1 * r1 / 3 - r1 * r1 * s0 / 4 - 3 * r1 * s0 * s0 / 8) + AWLS * (r0 + 3 * s0 / 4 - 3 * r0 *
    r0 - 9 * r0 * s0 / 2 - 27 * s0 * s0 / 16 + 2 * r0 * r0 * r0 + 9 * r0 * r0 * s0 / 2 + 27 * r0 * s0 * s0 / 8 +
    27 * s0 * s0 * s0 / 32 + r0 * r1 + 3 * r1 * s0 / 4 - 2 * r0 * r1 * r1 - 3 * r1 * r1 * s0 / 2) + AWSS * (r0 -
    s0 / 4 - 3 * r0 * r0 + 3 * r0 * s0 / 2 - 3 * s0 * s0 / 16 + 2 * r0 * r0 * r0 - 3 * r0 * r0 * s0 / 2 + 3 * r0
    * s0 * s0 / 8 - s0 * s0 * s0 / 32) + AWVNA * (r1 - r0 * r1 - 3 * r1 * s0 / 4 - 3 * r1 * r1 + 2 * r0 * r1 *
    r1 + 3 * r1 * r1 * s0 / 2 + 2 * r1 * r1 * r1) + AWVK * (r0 * r1 + 3 * r1 * s0 / 4 - 2 * r0 * r1 * r1 - 3 *
    r1 * r1 * s0 / 2) + WCANA * r2 * (1 - r2) + (6 * H23 + 3 * HEX - 15 * HX - 18 * WHNAKLS - 4 * WHNAKSS + 36 *
    WCAK - 36 * WCANA + 18 * WVN - 18 * WVK) * r0 * r2 / 18 + (WPLAG - WCANA - WVN) * r1 * r2 + (18 * WVN - 18 *
    WVK + 36 * WCAK - 36 * WCANA - 18 * WHNAKLS + 4 * WHNAKSS - 9 * HEX - 3 * HX + 6 * H23 - 36 * H24) * r2 * s0
    / 24

/-- `VEX`, nepheline.c 106. -/
def VEX : ℝ :=
  -(21 / 20)

/-- `VX`, nepheline.c 109. -/
def VX : ℝ :=
  0

/-- `WVNAKLS`, nepheline.c 117. -/
def WVNAKLS : ℝ :=
  (33 / 100)

/-- `WVNAKSS`, nepheline.c 119. -/
def WVNAKSS : ℝ :=
  (27 / 50)

/-- `V`, nepheline.c 457-464. -/
def V (r0 r1 r2 s0 : ℝ) : ℝ :=
  (1 / 4) * (2 * VEX + VX + 3 * WVNAKLS - WVNAKSS) * s0 + (VX + WVNAKLS + WVNAKSS) * r0 * (1 - r0) + 1 / 16 *
    (3 * VX - 9 * WVNAKLS - WVNAKSS) * s0 * s0 - (1 / 2) * (VX + 3 * WVNAKLS - WVNAKSS) * r0 * s0 + (1 / 2) *
    (VEX - VX - 2 * WVNAKLS) * r0 * r1 + (1 / 8) * (VX - VEX - 6 * WVNAKLS) * r1 * s0 + (3 * VEX - 15 * VX - 18
    * WVNAKLS - 4 * WVNAKSS) * r0 * r2 / 18 + ((-18) * WVNAKLS + 4 * WVNAKSS - 9 * VEX - 3 * VX) * r2 * s0 / 24

/-- `PENALTY`, nepheline.c 153. -/
def PENALTY : ℝ :=
  Real.sqrt dblEps

/-- `G`, nepheline.c 465. -/
def G (t p r0 r1 r2 s0 xkls xvcls xnals xkss xcass xnass : ℝ) : ℝ :=
  H r0 r1 r2 s0 - t * (S r0 r1 r2 s0 xkls xvcls xnals xkss xcass xnass) + (p - 1) * (V r0 r1 r2 s0) + PENALTY
    / r1

/-- `GX`, nepheline.c 160. -/
def GX (t p : ℝ) : ℝ :=
  HX - t * SX + (p - 1) * VX

/-- `WNAKLS`, nepheline.c 161. -/
def WNAKLS (p : ℝ) : ℝ :=
  WHNAKLS + (p - 1) * WVNAKLS

/-- `WNAKSS`, nepheline.c 162. -/
def WNAKSS (p : ℝ) : ℝ :=
  WHNAKSS + (p - 1) * WVNAKSS

/-- `G23`, nepheline.c 163. -/
def G23 (t : ℝ) : ℝ :=
  H23 - t * S23

/-- `GEX`, nepheline.c 159. -/
def GEX (t p : ℝ) : ℝ :=
  HEX - t * SEX + (p - 1) * VEX

/-- `DGDR0`, nepheline.c 469-487. -/
def DGDR0 (t p r0 r1 r2 s0 xkls xnals xkss xnass : ℝ) : ℝ :=
  R * t * (Real.log xkls - Real.log xnals + 3 * Real.log xkss - 3 * Real.log xnass) + (GX t p + (WNAKLS p) +
    (WNAKSS p)) * (1 - 2 * r0) - (1 / 2) * (GX t p + 3 * (WNAKLS p) - (WNAKSS p)) * s0 + (1 / 2) * (2 * (G23 t)
    + (GEX t p) - (GX t p) - 2 * (WNAKLS p) - 2 * WVN + 2 * WVK) * r1 + DWKNALS * (2 * r0 + (1 / 2) * s0 - 3 *
    r0 * r0 - 5 * r0 * s0 / 2 - 3 * s0 * s0 / 16 - r1 / 3 - 4 * r0 * r1 / 3 + r1 * r1 / 3 + 3 * r1 * s0 * s0 /
    8) + DWKNASS * (2 * r0 + (1 / 2) * s0 - 3 * r0 * r0 - r0 * s0 / 2 + 5 * s0 * s0 / 16) + DWVNASS * (4 * r1 /
    3 - 8 * r0 * r1 / 3 - r1 * r1 / 3) + DWVNALS * (2 * r1 / 3 - 4 * r0 * r1 / 3 - 2 * r1 * r1 / 3) + DWVKLS *
    (r1 / 3 + 4 * r0 * r1 / 3 - r1 * r1 / 3) + AWLS * (1 - 6 * r0 - 9 * s0 / 2 + 6 * r0 * r0 + 9 * r0 * s0 + 27
    * s0 * s0 / 8 + r1 - 2 * r1 * r1) + AWSS * (1 - 6 * r0 + 3 * s0 / 2 + 6 * r0 * r0 - 6 * r0 * s0 / 2 + 3 * s0
    * s0 / 8) + AWVNA * (-r1 + 2 * r1 * r1) + AWVK * (r1 - 2 * r1 * r1) + (6 * (G23 t) + 3 * (GEX t p) - 15 *
    (GX t p) - 18 * (WNAKLS p) - 4 * (WNAKSS p) + 36 * WCAK - 36 * WCANA + 18 * WVN - 18 * WVK) * r2 / 18

/-- `DGDR1`, nepheline.c 488-504. -/
def DGDR1 (t p r0 r1 r2 s0 xvcls xnals : ℝ) : ℝ :=
  R * t * (Real.log xvcls - Real.log xnals) + WVN * (1 - 2 * r1) + (1 / 2) * (2 * (G23 t) + (GEX t p) - (GX t
    p) - 2 * (WNAKLS p) - 2 * WVN + 2 * WVK) * r0 + (1 / 8) * (GX t p - (GEX t p) - 2 * (G23 t) - 6 * (WNAKLS p)
    - 6 * WVN + 6 * WVK) * s0 + DWKNALS * ((-r0) / 3 - s0 / 4 - 2 * r0 * r0 / 3 + 2 * r0 * r1 / 3 + r1 * s0 / 2
    + 3 * s0 * s0 / 8) + DWVNASS * (4 * r0 / 3 - 4 * r0 * r0 / 3 - 2 * r0 * r1 / 3 - r1 * s0 / 2 - s0 * s0 / 4)
    + DWVNALS * (2 * r0 / 3 - s0 / 2 - 2 * r0 * r0 / 3 - 4 * r0 * r1 / 3 + r1 * s0 + 3 * s0 * s0 / 8) + DWVKLS *
    (r0 / 3 + s0 / 4 + 2 * r0 * r0 / 3 - 2 * r0 * r1 / 3 - r1 * s0 / 2 - 3 * s0 * s0 / 8) + AWLS * (r0 + 3 * s0
    / 4 - 4 * r0 * r1 - 6 * r1 * s0 / 2) + AWVNA * (1 - r0 - 3 * s0 / 4 - 6 * r1 + 4 * r0 * r1 + 6 * r1 * s0 / 2
    + 6 * r1 * r1) + AWVK * (r0 + 3 * s0 / 4 - 4 * r0 * r1 - 6 * r1 * s0 / 2) + (WPLAG - WCANA - WVN) * r2 -
    PENALTY / (r1 * r1)

/-- `G4`, nepheline.c 157. -/
def G4 (t : ℝ) : ℝ :=
  (-t) * S4

/-- `G24`, nepheline.c 164. -/
def G24 (t : ℝ) : ℝ :=
  H24 - t * S24

/-- `DGDR2`, nepheline.c 505-512. -/
def DGDR2 (t p r0 r1 r2 s0 xvcls xnals xcass xnass : ℝ) : ℝ :=
  G4 t + R * t * (Real.log xvcls - Real.log xnals + Real.log (1 - 3 * xcass) + Real.log xcass - Real.log xnass
    + 1) + WCANA * (1 - 2 * r2) + (6 * (G23 t) + 3 * (GEX t p) - 15 * (GX t p) - 18 * (WNAKLS p) - 4 * (WNAKSS
    p) + 36 * WCAK - 36 * WCANA + 18 * WVN - 18 * WVK) * r0 / 18 + (WPLAG - WCANA - WVN) * r1 + (18 * WVN - 18 *
    WVK + 36 * WCAK - 36 * WCANA - 18 * (WNAKLS p) + 4 * (WNAKSS p) - 9 * (GEX t p) - 3 * (GX t p) + 6 * (G23 t)
    - 36 * (G24 t)) * s0 / 24

/-- `DGDS0`, nepheline.c 513-535. -/
def DGDS0 (t p r0 r1 r2 s0 xkls xnals xkss xnass : ℝ) : ℝ :=
  R * t * ((3 / 4) * Real.log xkls - (3 / 4) * Real.log xnals - 3 * (1 / 4) * Real.log xkss + 3 * (1 / 4) *
    Real.log xnass) + (1 / 4) * (2 * (GEX t p) + (GX t p) + 3 * (WNAKLS p) - (WNAKSS p)) + 1 / 8 * (3 * (GX t p)
    - 9 * (WNAKLS p) - (WNAKSS p)) * s0 - (1 / 2) * (GX t p + 3 * (WNAKLS p) - (WNAKSS p)) * r0 + (1 / 8) * (GX
    t p - (GEX t p) - 2 * (G23 t) - 6 * (WNAKLS p) - 6 * WVN + 6 * WVK) * r1 + DWKNALS * ((1 / 2) * r0 - 3 * s0
    / 8 - 5 * r0 * r0 / 4 - 3 * r0 * s0 / 8 + 27 * s0 * s0 / 64 - r1 / 4 + r1 * r1 / 4 + 3 * r1 * s0 / 4) +
    DWKNASS * ((1 / 2) * r0 - 3 * s0 / 8 - r0 * r0 / 4 + 5 * r0 * s0 / 8 - 9 * s0 * s0 / 64) + DWVNASS * ((-r1)
    * r1 / 4 - r1 * s0 / 2) + DWVNALS * ((-r1) / 2 + (1 / 2) * r1 * r1 + 3 * r1 * s0 / 4) + DWVKLS * (r1 / 4 -
    r1 * r1 / 4 - 3 * r1 * s0 / 4) + AWLS * (3 / 4 - 9 * r0 / 2 - 27 * s0 / 8 + 9 * r0 * r0 / 2 + 27 * r0 * s0 /
    4 + 81 * s0 * s0 / 32 + 3 * r1 / 4 - 3 * r1 * r1 / 2) + AWSS * ((-1) / 4 + 3 * r0 / 2 - 3 * s0 / 8 - 3 * r0
    * r0 / 2 + 3 * r0 * s0 / 4 - 3 * s0 * s0 / 32) + AWVNA * ((-3) * r1 / 4 + 3 * r1 * r1 / 2) + AWVK * (3 * r1
    / 4 - 3 * r1 * r1 / 2) + (18 * WVN - 18 * WVK + 36 * WCAK - 36 * WCANA - 18 * (WNAKLS p) + 4 * (WNAKSS p) -
    9 * (GEX t p) - 3 * (GX t p) + 6 * (G23 t) - 36 * (G24 t)) * r2 / 24

/-- `DGDT`, nepheline.c 536. -/
def DGDT (r0 r1 r2 s0 xkls xvcls xnals xkss xcass xnass : ℝ) : ℝ :=
  -(S r0 r1 r2 s0 xkls xvcls xnals xkss xcass xnass)

/-- `DGDP`, nepheline.c 537. -/
def DGDP (r0 r1 r2 s0 : ℝ) : ℝ :=
  V r0 r1 r2 s0

/-- `D2GDR0R0`, nepheline.c 541-547. -/
def D2GDR0R0 (t p r0 r1 s0 xkls xnals xkss xnass : ℝ) : ℝ :=
  R * t * (1 / xkls + 1 / xnals + 3 / xkss + 3 / xnass) - 2 * (GX t p + (WNAKLS p) + (WNAKSS p)) + DWKNALS *
    (2 - 6 * r0 - 5 * s0 / 2 - 4 * r1 / 3) + DWKNASS * (2 - 6 * r0 - s0 / 2) + DWVNASS * ((-8) * r1 / 3) -
    DWVNALS * (4 * r1 / 3) + DWVKLS * (4 * r1 / 3) + AWLS * (-6 + 12 * r0 + 9 * s0) + AWSS * (-6 + 12 * r0 - 6 *
    s0 / 2)

/-- `D2GDR0R1`, nepheline.c 548-555. -/
def D2GDR0R1 (t p r0 r1 s0 xnals : ℝ) : ℝ :=
  R * t / xnals + (1 / 2) * (2 * (G23 t) + (GEX t p) - (GX t p) - 2 * (WNAKLS p) - 2 * WVN + 2 * WVK) +
    DWKNALS * ((-1) / 3 - 4 * r0 / 3 + 2 * r1 / 3 + 3 * s0 * s0 / 8) + DWVNASS * (4 / 3 - 8 * r0 / 3 - 2 * r1 /
    3) + DWVNALS * (2 / 3 - 4 * r0 / 3 - 4 * r1 / 3) + DWVKLS * (1 / 3 + 4 * r0 / 3 - 2 * r1 / 3) + AWLS * (1 -
    4 * r1) + AWVNA * (-1 + 4 * r1) + AWVK * (1 - 4 * r1)

/-- `D2GDR0R2`, nepheline.c 556-558. -/
def D2GDR0R2 (t p xnals xnass : ℝ) : ℝ :=
  R * t * (1 / xnals + 1 / xnass) + (6 * (G23 t) + 3 * (GEX t p) - 15 * (GX t p) - 18 * (WNAKLS p) - 4 *
    (WNAKSS p) + 36 * WCAK - 36 * WCANA + 18 * WVN - 18 * WVK) / 18

/-- `D2GDR0S0`, nepheline.c 559-565. -/
def D2GDR0S0 (t p r0 r1 s0 xkls xnals xkss xnass : ℝ) : ℝ :=
  R * t * ((3 / 4) / xkls + (3 / 4) / xnals - 3 * (1 / 4) / xkss - 3 * (1 / 4) / xnass) - (1 / 2) * (GX t p +
    3 * (WNAKLS p) - (WNAKSS p)) + DWKNALS * ((1 / 2) - 5 * r0 / 2 - 6 * s0 / 16 + 6 * r1 * s0 / 8) + DWKNASS *
    ((1 / 2) - r0 / 2 + 10 * s0 / 16) + AWLS * ((-9) / 2 + 9 * r0 + 27 * s0 / 4 + r1) + AWSS * (3 / 2 - 6 * r0 /
    2 + 3 * s0 / 4)

/-- `D2GDR0DT`, nepheline.c 566-569. -/
def D2GDR0DT (r0 r1 r2 s0 xkls xnals xkss xnass : ℝ) : ℝ :=
  R * (Real.log xkls - Real.log xnals + 3 * Real.log xkss - 3 * Real.log xnass) - SX * (1 - 2 * r0) + (1 / 2)
    * SX * s0 - (1 / 2) * (2 * S23 + SEX - SX) * r1 + ((-6) * S23 - 3 * SEX + 15 * SX) * r2 / 18

/-- `D2GDR0DP`, nepheline.c 570-573. -/
def D2GDR0DP (r0 r1 r2 s0 : ℝ) : ℝ :=
  (VX + WVNAKLS + WVNAKSS) * (1 - 2 * r0) - (1 / 2) * (VX + 3 * WVNAKLS - WVNAKSS) * s0 + (1 / 2) * (VEX - VX
    - 2 * WVNAKLS) * r1 + (3 * VEX - 15 * VX - 18 * WVNAKLS - 4 * WVNAKSS) * r2 / 18

/-- `D2GDR1R1`, nepheline.c 575-583. -/
def D2GDR1R1 (t r0 r1 s0 xvcls xnals : ℝ) : ℝ :=
  R * t * (1 / xvcls + 1 / xnals) - 2 * WVN + DWKNALS * (2 * r0 / 3 + s0 / 2) + DWVNASS * ((-2) * r0 / 3 - s0
    / 2) + DWVNALS * ((-4) * r0 / 3 + s0) + DWVKLS * ((-2) * r0 / 3 - s0 / 2) + AWLS * ((-4) * r0 - 6 * s0 / 2)
    + AWVNA * (-6 + 4 * r0 + 6 * s0 / 2 + 12 * r1) + AWVK * ((-4) * r0 - 6 * s0 / 2) + 2 * PENALTY / (r1 * r1 *
    r1)

/-- `D2GDR1R2`, nepheline.c 584. -/
def D2GDR1R2 (t xvcls xnals : ℝ) : ℝ :=
  R * t * (1 / xvcls + 1 / xnals) + (WPLAG - WCANA - WVN)

/-- `D2GDR1S0`, nepheline.c 585-593. -/
def D2GDR1S0 (t p r1 s0 xnals : ℝ) : ℝ :=
  R * t * (3 / 4) / xnals + (1 / 8) * (GX t p - (GEX t p) - 2 * (G23 t) - 6 * (WNAKLS p) - 6 * WVN + 6 * WVK)
    + DWKNALS * ((-1) / 4 + r1 / 2 + 3 * s0 / 4) + DWVNASS * ((-r1) / 2 - s0 / 2) + DWVNALS * ((-1) / 2 + r1 + 3
    * s0 / 4) + DWVKLS * (1 / 4 - r1 / 2 - 3 * s0 / 4) + AWLS * (3 / 4 - 6 * r1 / 2) + AWVNA * ((-3) / 4 + 6 *
    r1 / 2) + AWVK * (3 / 4 - 6 * r1 / 2)

/-- `D2GDR1DT`, nepheline.c 594-595. -/
def D2GDR1DT (r0 s0 xvcls xnals : ℝ) : ℝ :=
  R * (Real.log xvcls - Real.log xnals) - (1 / 2) * (2 * S23 + SEX - SX) * r0 - (1 / 8) * (SX - SEX - 2 * S23)
    * s0

/-- `D2GDR1DP`, nepheline.c 596-597. -/
def D2GDR1DP (r0 s0 : ℝ) : ℝ :=
  (1 / 2) * (VEX - VX - 2 * WVNAKLS) * r0 + (1 / 8) * (VX - VEX - 6 * WVNAKLS) * s0

/-- `D2GDR2R2`, nepheline.c 599-600. -/
def D2GDR2R2 (t xvcls xnals xcass xnass : ℝ) : ℝ :=
  R * t * (1 / xvcls + 1 / xnals - 1 / (1 - 3 * xcass) + 1 / (3 * xcass) + 1 / (3 * xnass)) - 2 * WCANA

/-- `D2GDR2S0`, nepheline.c 601-603. -/
def D2GDR2S0 (t p xnals xnass : ℝ) : ℝ :=
  R * t * ((3 / 4) / xnals - (1 / 4) / xnass) + (18 * WVN - 18 * WVK + 36 * WCAK - 36 * WCANA - 18 * (WNAKLS
    p) + 4 * (WNAKSS p) - 9 * (GEX t p) - 3 * (GX t p) + 6 * (G23 t) - 36 * (G24 t)) / 24

/-- `D2GDR2DT`, nepheline.c 604-607. -/
def D2GDR2DT (r0 s0 xvcls xnals xcass xnass : ℝ) : ℝ :=
  -S4 + R * (Real.log xvcls - Real.log xnals + Real.log (1 - 3 * xcass) + Real.log xcass - Real.log xnass + 1)
    + ((-6) * S23 - 3 * SEX + 15 * SX) * r0 / 18 + (9 * SEX + 3 * SX - 6 * S23 + 36 * S24) * s0 / 24

/-- `D2GDR2DP`, nepheline.c 608-609. -/
def D2GDR2DP (r0 s0 : ℝ) : ℝ :=
  (3 * VEX - 15 * VX - 18 * WVNAKLS - 4 * WVNAKSS) * r0 / 18 + ((-18) * WVNAKLS + 4 * WVNAKSS - 9 * VEX - 3 *
    VX) * s0 / 24

/-- `D2GDS0S0`, nepheline.c 611-620. -/
def D2GDS0S0 (t p r0 r1 s0 xkls xnals xkss xnass : ℝ) : ℝ :=
  R * t * ((3 / 4) * (3 / 4) / xkls + (3 / 4) * (3 / 4) / xnals + 3 * (1 / 4) * (1 / 4) / xkss + 3 * (1 / 4) *
    (1 / 4) / xnass) + 1 / 8 * (3 * (GX t p) - 9 * (WNAKLS p) - (WNAKSS p)) + DWKNALS * ((-3) / 8 - 3 * r0 / 8 +
    27 * s0 / 32 + 3 * r1 / 4) + DWKNASS * ((-3) / 8 + 5 * r0 / 8 - 9 * s0 / 32) + DWVNASS * ((-r1) / 2) +
    DWVNALS * (3 * r1 / 4) + DWVKLS * ((-3) * r1 / 4) + AWLS * ((-27) / 8 + 27 * r0 / 4 + 81 * s0 / 16) + AWSS *
    ((-3) / 8 + 3 * r0 / 4 - 3 * s0 / 16)

/-- `D2GDS0DT`, nepheline.c 621-625. -/
def D2GDS0DT (r0 r1 r2 s0 xkls xnals xkss xnass : ℝ) : ℝ :=
  R * ((3 / 4) * Real.log xkls - (3 / 4) * Real.log xnals - 3 * (1 / 4) * Real.log xkss + 3 * (1 / 4) *
    Real.log xnass) - (1 / 4) * (2 * SEX + SX) - 1 / 8 * (3 * SX) * s0 + (1 / 2) * SX * r0 - (1 / 8) * (SX - SEX
    - 2 * S23) * r1 + (9 * SEX + 3 * SX - 6 * S23 + 36 * S24) * r2 / 24

/-- `D2GDS0DP`, nepheline.c 626-630. -/
def D2GDS0DP (r0 r1 r2 s0 : ℝ) : ℝ :=
  (1 / 4) * (2 * VEX + VX + 3 * WVNAKLS - WVNAKSS) + 1 / 8 * (3 * VX - 9 * WVNAKLS - WVNAKSS) * s0 - (1 / 2) *
    (VX + 3 * WVNAKLS - WVNAKSS) * r0 + (1 / 8) * (VX - VEX - 6 * WVNAKLS) * r1 + ((-18) * WVNAKLS + 4 * WVNAKSS
    - 9 * VEX - 3 * VX) * r2 / 24

/-- `D2GDT2`, nepheline.c 632. -/
def D2GDT2 : ℝ :=
  0

/-- `D2GDTDP`, nepheline.c 633. -/
def D2GDTDP : ℝ :=
  0

/-- `D2GDP2`, nepheline.c 634. -/
def D2GDP2 : ℝ :=
  0

/-- `D3GDR0R0R0`, nepheline.c 638-640. -/
def D3GDR0R0R0 (t xkls xnals xkss xnass : ℝ) : ℝ :=
  (-R) * t * (1 / (xkls * xkls) - 1 / (xnals * xnals) + 3 / (xkss * xkss) - 3 / (xnass * xnass)) - 6 * DWKNALS
    - 6 * DWKNASS + AWLS * 12 + AWSS * 12

/-- `D3GDR0R0R1`, nepheline.c 641-643. -/
def D3GDR0R0R1 (t xnals : ℝ) : ℝ :=
  R * t / (xnals * xnals) + DWKNALS * ((-4) / 3) + DWVNASS * ((-8) / 3) - DWVNALS * (4 / 3) + DWVKLS * (4 / 3)

/-- `D3GDR0R0R2`, nepheline.c 645. -/
def D3GDR0R0R2 (t xnals xnass : ℝ) : ℝ :=
  R * t * (1 / (xnals * xnals) + 1 / (xnass * xnass))

/-- `D3GDR0R0S0`, nepheline.c 646-649. -/
def D3GDR0R0S0 (t xkls xnals xkss xnass : ℝ) : ℝ :=
  (-R) * t * ((3 / 4) / (xkls * xkls) - (3 / 4) / (xnals * xnals) - 3 * (1 / 4) / (xkss * xkss) + 3 * (1 / 4)
    / (xnass * xnass)) + DWKNALS * ((-5) / 2) + DWKNASS * ((-1) / 2) + AWLS * 9 + AWSS * ((-6) / 2)

/-- `D3GDR0R0DT`, nepheline.c 650-651. -/
def D3GDR0R0DT (xkls xnals xkss xnass : ℝ) : ℝ :=
  R * (1 / xkls + 1 / xnals + 3 / xkss + 3 / xnass) + 2 * SX

/-- `D3GDR0R0DP`, nepheline.c 652. -/
def D3GDR0R0DP : ℝ :=
  (-2) * (VX + WVNAKLS + WVNAKSS)

/-- `D3GDR0R1R1`, nepheline.c 654-657. -/
def D3GDR0R1R1 (t xnals : ℝ) : ℝ :=
  R * t / (xnals * xnals) + DWKNALS * (2 / 3) + DWVNASS * ((-2) / 3) + DWVNALS * ((-4) / 3) + DWVKLS * ((-2) /
    3) + AWLS * (-4) + AWVNA * 4 + AWVK * (-4)

/-- `D3GDR0R1R2`, nepheline.c 658. -/
def D3GDR0R1R2 (t xnals : ℝ) : ℝ :=
  R * t / (xnals * xnals)

/-- `D3GDR0R1S0`, nepheline.c 659-660. -/
def D3GDR0R1S0 (t s0 xnals : ℝ) : ℝ :=
  R * t * (3 / 4) / (xnals * xnals) + DWKNALS * (3 * s0 / 4)

/-- `D3GDR0R1DT`, nepheline.c 661. -/
def D3GDR0R1DT (xnals : ℝ) : ℝ :=
  R / xnals - (1 / 2) * (2 * S23 + SEX - SX)

/-- `D3GDR0R1DP`, nepheline.c 662. -/
def D3GDR0R1DP : ℝ :=
  (1 / 2) * (VEX - VX - 2 * WVNAKLS)

/-- `D3GDR0R2R2`, nepheline.c 664. -/
def D3GDR0R2R2 (t xnals xnass : ℝ) : ℝ :=
  R * t * (1 / (xnals * xnals) + 1 / (3 * xnass * xnass))

/-- `D3GDR0R2S0`, nepheline.c 665. -/
def D3GDR0R2S0 (t xnals xnass : ℝ) : ℝ :=
  R * t * ((3 / 4) / (xnals * xnals) - (1 / 4) / (xnass * xnass))

/-- `D3GDR0R2DT`, nepheline.c 666-667. -/
def D3GDR0R2DT (xnals xnass : ℝ) : ℝ :=
  R * (1 / xnals + 1 / xnass) + ((-6) * S23 - 3 * SEX + 15 * SX) / 18

/-- `D3GDR0R2DP`, nepheline.c 668. -/
def D3GDR0R2DP : ℝ :=
  (3 * VEX - 15 * VX - 18 * WVNAKLS - 4 * WVNAKSS) / 18

/-- `D3GDR0S0S0`, nepheline.c 670-673. -/
def D3GDR0S0S0 (t r1 xkls xnals xkss xnass : ℝ) : ℝ :=
  (-R) * t * ((3 / 4) * (3 / 4) / (xkls * xkls) - (3 / 4) * (3 / 4) / (xnals * xnals) + 3 * (1 / 4) * (1 / 4)
    / (xkss * xkss) - 3 * (1 / 4) * (1 / 4) / (xnass * xnass)) + DWKNALS * ((-6) / 16 + 6 * r1 / 8) + DWKNASS *
    (10 / 16) + AWLS * (27 / 4) + AWSS * (3 / 4)

/-- `D3GDR0S0DT`, nepheline.c 674-675. -/
def D3GDR0S0DT (xkls xnals xkss xnass : ℝ) : ℝ :=
  R * ((3 / 4) / xkls + (3 / 4) / xnals - 3 * (1 / 4) / xkss - 3 * (1 / 4) / xnass) + (1 / 2) * SX

/-- `D3GDR0S0DP`, nepheline.c 676. -/
def D3GDR0S0DP : ℝ :=
  (-(1 / 2)) * (VX + 3 * WVNAKLS - WVNAKSS)

/-- `D3GDR1R1R1`, nepheline.c 678-680. -/
def D3GDR1R1R1 (t r1 xvcls xnals : ℝ) : ℝ :=
  (-R) * t * (1 / (xvcls * xvcls) - 1 / (xnals * xnals)) + AWVNA * 12 - 6 * PENALTY / (r1 * r1 * r1 * r1)

/-- `D3GDR1R1R2`, nepheline.c 681. -/
def D3GDR1R1R2 (t xvcls xnals : ℝ) : ℝ :=
  R * t * ((-1) / (xvcls * xvcls) + 1 / (xnals * xnals))

/-- `D3GDR1R1S0`, nepheline.c 682-685. -/
def D3GDR1R1S0 (t xnals : ℝ) : ℝ :=
  R * t * (3 / 4) / (xnals * xnals) + DWKNALS * (1 / 2) + DWVNASS * ((-1) / 2) + DWVNALS + DWVKLS * ((-1) / 2)
    + AWLS * ((-6) / 2) + AWVNA * (6 / 2) + AWVK * ((-6) / 2)

/-- `D3GDR1R1DT`, nepheline.c 686. -/
def D3GDR1R1DT (xvcls xnals : ℝ) : ℝ :=
  R * (1 / xvcls + 1 / xnals)

/-- `D3GDR1R1DP`, nepheline.c 687. -/
def D3GDR1R1DP : ℝ :=
  0

/-- `D3GDR1R2R2`, nepheline.c 689. -/
def D3GDR1R2R2 (t xvcls xnals : ℝ) : ℝ :=
  R * t * ((-1) / (xvcls * xvcls) + 1 / (xnals * xnals))

/-- `D3GDR1R2S0`, nepheline.c 690. -/
def D3GDR1R2S0 (t xnals : ℝ) : ℝ :=
  R * t * (3 / 4) / (xnals * xnals)

/-- `D3GDR1R2DT`, nepheline.c 691. -/
def D3GDR1R2DT (xvcls xnals : ℝ) : ℝ :=
  R * (1 / xvcls + 1 / xnals)

/-- `D3GDR1R2DP`, nepheline.c 692. -/
def D3GDR1R2DP : ℝ :=
  0

/-- `D3GDR1S0S0`, nepheline.c 694-696. -/
def D3GDR1S0S0 (t xnals : ℝ) : ℝ :=
  R * t * (3 / 4) * (3 / 4) / (xnals * xnals) + DWKNALS * (3 / 4) + DWVNASS * ((-1) / 2) + DWVNALS * (3 / 4) +
    DWVKLS * ((-3) / 4)

/-- `D3GDR1S0DT`, nepheline.c 697. -/
def D3GDR1S0DT (xnals : ℝ) : ℝ :=
  R * (3 / 4) / xnals - (1 / 8) * ((-2) * S23 + SX - SEX)

/-- `D3GDR1S0DP`, nepheline.c 698. -/
def D3GDR1S0DP : ℝ :=
  (1 / 8) * (VX - VEX - 6 * WVNAKLS)

/-- `D3GDR2R2R2`, nepheline.c 700-702. -/
def D3GDR2R2R2 (t xvcls xnals xcass xnass : ℝ) : ℝ :=
  R * t * ((-1) / (xvcls * xvcls) + 1 / (xnals * xnals) - 1 / (1 - 3 * xcass) ^ 2 - 1 / (3 * xcass) ^ 2 + 1 /
    (3 * xnass) ^ 2)

/-- `D3GDR2R2S0`, nepheline.c 703. -/
def D3GDR2R2S0 (t xnals xnass : ℝ) : ℝ :=
  R * t * ((3 / 4) / (xnals * xnals) - (1 / 4) / (3 * xnass * xnass))

/-- `D3GDR2R2DT`, nepheline.c 704-705. -/
def D3GDR2R2DT (xvcls xnals xcass xnass : ℝ) : ℝ :=
  R * (1 / xvcls + 1 / xnals - 1 / (1 - 3 * xcass) + 1 / (3 * xcass) + 1 / (3 * xnass))

/-- `D3GDR2R2DP`, nepheline.c 706. -/
def D3GDR2R2DP : ℝ :=
  0

/-- `D3GDR2S0S0`, nepheline.c 708. -/
def D3GDR2S0S0 (t xnals xnass : ℝ) : ℝ :=
  R * t * ((3 / 4) * (3 / 4) / (xnals * xnals) + (1 / 4) * (1 / 4) / (xnass * xnass))

/-- `D3GDR2S0DT`, nepheline.c 709-710. -/
def D3GDR2S0DT (xnals xnass : ℝ) : ℝ :=
  R * ((3 / 4) / xnals - (1 / 4) / xnass) + (9 * SEX + 3 * SX - 6 * S23 + 36 * S24) / 24

/-- `D3GDR2S0DP`, nepheline.c 711. -/
def D3GDR2S0DP : ℝ :=
  ((-18) * WVNAKLS + 4 * WVNAKSS - 9 * VEX - 3 * VX) / 24

/-- `D3GDS0S0S0`, nepheline.c 713-717. -/
def D3GDS0S0S0 (t xkls xnals xkss xnass : ℝ) : ℝ :=
  (-R) * t * ((3 / 4) * (3 / 4) * (3 / 4) / (xkls * xkls) - (3 / 4) * (3 / 4) * (3 / 4) / (xnals * xnals) - 3
    * (1 / 4) * (1 / 4) * (1 / 4) / (xkss * xkss) + 3 * (1 / 4) * (1 / 4) * (1 / 4) / (xnass * xnass)) + DWKNALS
    * (27 / 32) + DWKNASS * ((-9) / 32) + AWLS * (81 / 16) + AWSS * ((-3) / 16)

/-- `D3GDS0S0DT`, nepheline.c 718-720. -/
def D3GDS0S0DT (xkls xnals xkss xnass : ℝ) : ℝ :=
  R * ((3 / 4) * (3 / 4) / xkls + (3 / 4) * (3 / 4) / xnals + 3 * (1 / 4) * (1 / 4) / xkss + 3 * (1 / 4) * (1
    / 4) / xnass) - 1 / 8 * (3 * SX)

/-- `D3GDS0S0DP`, nepheline.c 721. -/
def D3GDS0S0DP : ℝ :=
  1 / 8 * (3 * VX - 9 * WVNAKLS - WVNAKSS)

/-- `D3GDS0DT2`, nepheline.c 722. -/
def D3GDS0DT2 : ℝ :=
  0

/-- `D3GDS0DTDP`, nepheline.c 723. -/
def D3GDS0DTDP : ℝ :=
  0

/-- `D3GDS0DP2`, nepheline.c 724. -/
def D3GDS0DP2 : ℝ :=
  0

/-- `D3GDT3`, nepheline.c 726. -/
def D3GDT3 : ℝ :=
  0

/-- `D3GDT2DP`, nepheline.c 727. -/
def D3GDT2DP : ℝ :=
  0

/-- `D3GDTDP2`, nepheline.c 728. -/
def D3GDTDP2 : ℝ :=
  0

/-- `D3GDP3`, nepheline.c 729. -/
def D3GDP3 : ℝ :=
  0

/-- `D3GDR0DT2`, nepheline.c 731. -/
def D3GDR0DT2 : ℝ :=
  0

/-- `D3GDR0DTDP`, nepheline.c 732. -/
def D3GDR0DTDP : ℝ :=
  0

/-- `D3GDR0DP2`, nepheline.c 733. -/
def D3GDR0DP2 : ℝ :=
  0

/-- `D3GDR1DT2`, nepheline.c 734. -/
def D3GDR1DT2 : ℝ :=
  0

/-- `D3GDR1DTDP`, nepheline.c 735. -/
def D3GDR1DTDP : ℝ :=
  0

/-- `D3GDR1DP2`, nepheline.c 736. -/
def D3GDR1DP2 : ℝ :=
  0

/-- `D3GDR2DT2`, nepheline.c 737. -/
def D3GDR2DT2 : ℝ :=
  0

/-- `D3GDR2DTDP`, nepheline.c 738. -/
def D3GDR2DTDP : ℝ :=
  0

/-- `D3GDR2DP2`, nepheline.c 739. -/
def D3GDR2DP2 : ℝ :=
  0

/-- The arrays as the functions of nepheline.c fill them (lines 745-800), for site fractions `x` and variables `y`. -/
def tables (x : Fin 6 → ℝ) (y : Var 3 1 → ℝ) : Tables 3 1 where
g := G (y (.inl iT)) (y (.inl iP)) (y (.inl (.inl 0))) (y (.inl (.inl 1))) (y (.inl (.inl 2))) (y (.inr 0))
    (x 0) (x 1) (x 2) (x 3) (x 4) (x 5)
s := S (y (.inl (.inl 0))) (y (.inl (.inl 1))) (y (.inl (.inl 2))) (y (.inr 0)) (x 0) (x 1) (x 2) (x 3) (x
    4) (x 5)
dgdr := ![DGDR0 (y (.inl iT)) (y (.inl iP)) (y (.inl (.inl 0))) (y (.inl (.inl 1))) (y (.inl (.inl 2))) (y
    (.inr 0)) (x 0) (x 2) (x 3) (x 5), DGDR1 (y (.inl iT)) (y (.inl iP)) (y (.inl (.inl 0))) (y (.inl (.inl 1)))
    (y (.inl (.inl 2))) (y (.inr 0)) (x 1) (x 2), DGDR2 (y (.inl iT)) (y (.inl iP)) (y (.inl (.inl 0))) (y (.inl
    (.inl 1))) (y (.inl (.inl 2))) (y (.inr 0)) (x 1) (x 2) (x 4) (x 5)]
dgds := ![DGDS0 (y (.inl iT)) (y (.inl iP)) (y (.inl (.inl 0))) (y (.inl (.inl 1))) (y (.inl (.inl 2))) (y
    (.inr 0)) (x 0) (x 2) (x 3) (x 5)]
dgdt := DGDT (y (.inl (.inl 0))) (y (.inl (.inl 1))) (y (.inl (.inl 2))) (y (.inr 0)) (x 0) (x 1) (x 2) (x
    3) (x 4) (x 5)
dgdp := DGDP (y (.inl (.inl 0))) (y (.inl (.inl 1))) (y (.inl (.inl 2))) (y (.inr 0))
d2gdt2 := D2GDT2
d2gdtdp := D2GDTDP
d2gdp2 := D2GDP2
d3gdt3 := D3GDT3
d3gdt2dp := D3GDT2DP
d3gdtdp2 := D3GDTDP2
d3gdp3 := D3GDP3
d2gdr2 := ![![D2GDR0R0 (y (.inl iT)) (y (.inl iP)) (y (.inl (.inl 0))) (y (.inl (.inl 1))) (y (.inr 0)) (x
    0) (x 2) (x 3) (x 5), D2GDR0R1 (y (.inl iT)) (y (.inl iP)) (y (.inl (.inl 0))) (y (.inl (.inl 1))) (y (.inr
    0)) (x 2), D2GDR0R2 (y (.inl iT)) (y (.inl iP)) (x 2) (x 5)], ![D2GDR0R1 (y (.inl iT)) (y (.inl iP)) (y
    (.inl (.inl 0))) (y (.inl (.inl 1))) (y (.inr 0)) (x 2), D2GDR1R1 (y (.inl iT)) (y (.inl (.inl 0))) (y (.inl
    (.inl 1))) (y (.inr 0)) (x 1) (x 2), D2GDR1R2 (y (.inl iT)) (x 1) (x 2)], ![D2GDR0R2 (y (.inl iT)) (y (.inl
    iP)) (x 2) (x 5), D2GDR1R2 (y (.inl iT)) (x 1) (x 2), D2GDR2R2 (y (.inl iT)) (x 1) (x 2) (x 4) (x 5)]]
d2gdrds := ![![D2GDR0S0 (y (.inl iT)) (y (.inl iP)) (y (.inl (.inl 0))) (y (.inl (.inl 1))) (y (.inr 0)) (x
    0) (x 2) (x 3) (x 5)], ![D2GDR1S0 (y (.inl iT)) (y (.inl iP)) (y (.inl (.inl 1))) (y (.inr 0)) (x 2)],
    ![D2GDR2S0 (y (.inl iT)) (y (.inl iP)) (x 2) (x 5)]]
d2gdrdt := ![D2GDR0DT (y (.inl (.inl 0))) (y (.inl (.inl 1))) (y (.inl (.inl 2))) (y (.inr 0)) (x 0) (x 2)
    (x 3) (x 5), D2GDR1DT (y (.inl (.inl 0))) (y (.inr 0)) (x 1) (x 2), D2GDR2DT (y (.inl (.inl 0))) (y (.inr
    0)) (x 1) (x 2) (x 4) (x 5)]
d2gdrdp := ![D2GDR0DP (y (.inl (.inl 0))) (y (.inl (.inl 1))) (y (.inl (.inl 2))) (y (.inr 0)), D2GDR1DP (y
    (.inl (.inl 0))) (y (.inr 0)), D2GDR2DP (y (.inl (.inl 0))) (y (.inr 0))]
d2gds2 := ![![D2GDS0S0 (y (.inl iT)) (y (.inl iP)) (y (.inl (.inl 0))) (y (.inl (.inl 1))) (y (.inr 0)) (x
    0) (x 2) (x 3) (x 5)]]
d2gdsdt := ![D2GDS0DT (y (.inl (.inl 0))) (y (.inl (.inl 1))) (y (.inl (.inl 2))) (y (.inr 0)) (x 0) (x 2)
    (x 3) (x 5)]
d2gdsdp := ![D2GDS0DP (y (.inl (.inl 0))) (y (.inl (.inl 1))) (y (.inl (.inl 2))) (y (.inr 0))]
d3gdr3 := ![![![D3GDR0R0R0 (y (.inl iT)) (x 0) (x 2) (x 3) (x 5), D3GDR0R0R1 (y (.inl iT)) (x 2), D3GDR0R0R2
    (y (.inl iT)) (x 2) (x 5)], ![D3GDR0R0R1 (y (.inl iT)) (x 2), D3GDR0R1R1 (y (.inl iT)) (x 2), D3GDR0R1R2 (y
    (.inl iT)) (x 2)], ![D3GDR0R0R2 (y (.inl iT)) (x 2) (x 5), D3GDR0R1R2 (y (.inl iT)) (x 2), D3GDR0R2R2 (y
    (.inl iT)) (x 2) (x 5)]], ![![D3GDR0R0R1 (y (.inl iT)) (x 2), D3GDR0R1R1 (y (.inl iT)) (x 2), D3GDR0R1R2 (y
    (.inl iT)) (x 2)], ![D3GDR0R1R1 (y (.inl iT)) (x 2), D3GDR1R1R1 (y (.inl iT)) (y (.inl (.inl 1))) (x 1) (x
    2), D3GDR1R1R2 (y (.inl iT)) (x 1) (x 2)], ![D3GDR0R1R2 (y (.inl iT)) (x 2), D3GDR1R1R2 (y (.inl iT)) (x 1)
    (x 2), D3GDR1R2R2 (y (.inl iT)) (x 1) (x 2)]], ![![D3GDR0R0R2 (y (.inl iT)) (x 2) (x 5), D3GDR0R1R2 (y (.inl
    iT)) (x 2), D3GDR0R2R2 (y (.inl iT)) (x 2) (x 5)], ![D3GDR0R1R2 (y (.inl iT)) (x 2), D3GDR1R1R2 (y (.inl
    iT)) (x 1) (x 2), D3GDR1R2R2 (y (.inl iT)) (x 1) (x 2)], ![D3GDR0R2R2 (y (.inl iT)) (x 2) (x 5), D3GDR1R2R2
    (y (.inl iT)) (x 1) (x 2), D3GDR2R2R2 (y (.inl iT)) (x 1) (x 2) (x 4) (x 5)]]]
d3gdr2ds := ![![![D3GDR0R0S0 (y (.inl iT)) (x 0) (x 2) (x 3) (x 5)], ![D3GDR0R1S0 (y (.inl iT)) (y (.inr 0))
    (x 2)], ![D3GDR0R2S0 (y (.inl iT)) (x 2) (x 5)]], ![![D3GDR0R1S0 (y (.inl iT)) (y (.inr 0)) (x 2)],
    ![D3GDR1R1S0 (y (.inl iT)) (x 2)], ![D3GDR1R2S0 (y (.inl iT)) (x 2)]], ![![D3GDR0R2S0 (y (.inl iT)) (x 2) (x
    5)], ![D3GDR1R2S0 (y (.inl iT)) (x 2)], ![D3GDR2R2S0 (y (.inl iT)) (x 2) (x 5)]]]
d3gdr2dt := ![![D3GDR0R0DT (x 0) (x 2) (x 3) (x 5), D3GDR0R1DT (x 2), D3GDR0R2DT (x 2) (x 5)], ![D3GDR0R1DT
    (x 2), D3GDR1R1DT (x 1) (x 2), D3GDR1R2DT (x 1) (x 2)], ![D3GDR0R2DT (x 2) (x 5), D3GDR1R2DT (x 1) (x 2),
    D3GDR2R2DT (x 1) (x 2) (x 4) (x 5)]]
d3gdr2dp := ![![D3GDR0R0DP, D3GDR0R1DP, D3GDR0R2DP], ![D3GDR0R1DP, D3GDR1R1DP, D3GDR1R2DP], ![D3GDR0R2DP,
    D3GDR1R2DP, D3GDR2R2DP]]
d3gdrds2 := ![![![D3GDR0S0S0 (y (.inl iT)) (y (.inl (.inl 1))) (x 0) (x 2) (x 3) (x 5)]], ![![D3GDR1S0S0 (y
    (.inl iT)) (x 2)]], ![![D3GDR2S0S0 (y (.inl iT)) (x 2) (x 5)]]]
d3gdrdsdt := ![![D3GDR0S0DT (x 0) (x 2) (x 3) (x 5)], ![D3GDR1S0DT (x 2)], ![D3GDR2S0DT (x 2) (x 5)]]
d3gdrdsdp := ![![D3GDR0S0DP], ![D3GDR1S0DP], ![D3GDR2S0DP]]
d3gdrdt2 := ![D3GDR0DT2, D3GDR1DT2, D3GDR2DT2]
d3gdrdtdp := ![D3GDR0DTDP, D3GDR1DTDP, D3GDR2DTDP]
d3gdrdp2 := ![D3GDR0DP2, D3GDR1DP2, D3GDR2DP2]
d3gds3 := ![![![D3GDS0S0S0 (y (.inl iT)) (x 0) (x 2) (x 3) (x 5)]]]
d3gds2dt := ![![D3GDS0S0DT (x 0) (x 2) (x 3) (x 5)]]
d3gds2dp := ![![D3GDS0S0DP]]
d3gdsdt2 := ![D3GDS0DT2]
d3gdsdtdp := ![D3GDS0DTDP]
d3gdsdp2 := ![D3GDS0DP2]

/-- Site fractions before they are kept inside their bounds, nepheline.c 901-938. -/
def raw (y : Var 3 1 → ℝ) : Fin 6 → ℝ :=
  ![(y (.inl (.inl 0))) + 3 * (y (.inr 0)) / 4, (y (.inl (.inl 1))) + (y (.inl (.inl 2))), 1 - (y (.inl (.inl
    0))) - (y (.inl (.inl 1))) - (y (.inl (.inl 2))) - 3 * (y (.inr 0)) / 4, (y (.inl (.inl 0))) - (y (.inr 0))
    / 4, (y (.inl (.inl 2))) / 3, 1 - (y (.inl (.inl 0))) - (y (.inl (.inl 2))) / 3 + (y (.inr 0)) / 4]

/-- Bounds applied to the site fractions, nepheline.c 901-938. -/
def site (y : Var 3 1 → ℝ) : Fin 6 → ℝ :=
  ![keep dblEps (1 - dblEps) (1 - dblEps) (raw y 0), keep dblEps (1 - dblEps) (1 - dblEps) (raw y 1), keep
    dblEps (1 - dblEps) (1 - dblEps) (raw y 2), keep dblEps (1 - dblEps) (1 - dblEps) (raw y 3), keep dblEps (1
    / 3 - dblEps) (1 / 3 - dblEps) (raw y 4), keep dblEps (1 - dblEps) (1 - dblEps) (raw y 5)]

/-- The macros of nepheline.c at given composition, conditions and ordering state. -/
def macros (y : Var 3 1 → ℝ) : Tables 3 1 := tables (site y) y

/-- Where no bound on the site fractions is active. -/
def Dom (y : Var 3 1 → ℝ) : Prop :=
  (dblEps < raw y 0 ∧ raw y 0 < 1 - dblEps) ∧ (dblEps < raw y 1 ∧ raw y 1 < 1 - dblEps) ∧ (dblEps < raw y 2 ∧
    raw y 2 < 1 - dblEps) ∧ (dblEps < raw y 3 ∧ raw y 3 < 1 - dblEps) ∧ (dblEps < raw y 4 ∧ raw y 4 < 1 / 3 -
    dblEps) ∧ (dblEps < raw y 5 ∧ raw y 5 < 1 - dblEps) ∧ 0 < (y (.inl (.inl 1)))

lemma hl (y u : Var 3 1 → ℝ) (i : Var 3 1) : HasDerivAt (fun v : ℝ => y i + v * u i) (u i) 0 := by
  simpa using ((hasDerivAt_id' (0 : ℝ)).mul_const (u i)).const_add (y i)

lemma raw_line0 (y u : Var 3 1 → ℝ) : HasDerivAt (fun v : ℝ => raw (fun i => y i + v * u i) 0)
    (1 * u (.inl (.inl 0)) + (3 / 4) * u (.inr 0)) 0 := by
  have hr0 := hl y u ((.inl (.inl 0)))
  have hr1 := hl y u ((.inl (.inl 1)))
  have hr2 := hl y u ((.inl (.inl 2)))
  have hs0 := hl y u ((.inr 0))
  change HasDerivAt (fun v : ℝ => (y (.inl (.inl 0)) + v * u (.inl (.inl 0))) + 3 * (y (.inr 0) + v * u (.inr 0)) / 4) _ 0
  refine HasDerivAt.congr_deriv (by hdo) ?_
  ring

lemma raw_line1 (y u : Var 3 1 → ℝ) : HasDerivAt (fun v : ℝ => raw (fun i => y i + v * u i) 1)
    (1 * u (.inl (.inl 1)) + 1 * u (.inl (.inl 2))) 0 := by
  have hr0 := hl y u ((.inl (.inl 0)))
  have hr1 := hl y u ((.inl (.inl 1)))
  have hr2 := hl y u ((.inl (.inl 2)))
  have hs0 := hl y u ((.inr 0))
  change HasDerivAt (fun v : ℝ => (y (.inl (.inl 1)) + v * u (.inl (.inl 1))) + (y (.inl (.inl 2)) + v * u (.inl (.inl 2)))) _ 0
  refine HasDerivAt.congr_deriv (by hdo) ?_
  ring

lemma raw_line2 (y u : Var 3 1 → ℝ) : HasDerivAt (fun v : ℝ => raw (fun i => y i + v * u i) 2)
    ((-1) * u (.inl (.inl 0)) + (-1) * u (.inl (.inl 1)) + (-1) * u (.inl (.inl 2)) + (-(3) / 4) * u (.inr 0)) 0 := by
  have hr0 := hl y u ((.inl (.inl 0)))
  have hr1 := hl y u ((.inl (.inl 1)))
  have hr2 := hl y u ((.inl (.inl 2)))
  have hs0 := hl y u ((.inr 0))
  change HasDerivAt (fun v : ℝ => 1 - (y (.inl (.inl 0)) + v * u (.inl (.inl 0))) - (y (.inl (.inl 1)) + v * u (.inl (.inl 1))) - (y (.inl
    (.inl 2)) + v * u (.inl (.inl 2))) - 3 * (y (.inr 0) + v * u (.inr 0)) / 4) _ 0
  refine HasDerivAt.congr_deriv (by hdo) ?_
  ring

lemma raw_line3 (y u : Var 3 1 → ℝ) : HasDerivAt (fun v : ℝ => raw (fun i => y i + v * u i) 3)
    (1 * u (.inl (.inl 0)) + (-(1) / 4) * u (.inr 0)) 0 := by
  have hr0 := hl y u ((.inl (.inl 0)))
  have hr1 := hl y u ((.inl (.inl 1)))
  have hr2 := hl y u ((.inl (.inl 2)))
  have hs0 := hl y u ((.inr 0))
  change HasDerivAt (fun v : ℝ => (y (.inl (.inl 0)) + v * u (.inl (.inl 0))) - (y (.inr 0) + v * u (.inr 0)) / 4) _ 0
  refine HasDerivAt.congr_deriv (by hdo) ?_
  ring

lemma raw_line4 (y u : Var 3 1 → ℝ) : HasDerivAt (fun v : ℝ => raw (fun i => y i + v * u i) 4)
    ((1 / 3) * u (.inl (.inl 2))) 0 := by
  have hr0 := hl y u ((.inl (.inl 0)))
  have hr1 := hl y u ((.inl (.inl 1)))
  have hr2 := hl y u ((.inl (.inl 2)))
  have hs0 := hl y u ((.inr 0))
  change HasDerivAt (fun v : ℝ => (y (.inl (.inl 2)) + v * u (.inl (.inl 2))) / 3) _ 0
  refine HasDerivAt.congr_deriv (by hdo) ?_
  ring

lemma raw_line5 (y u : Var 3 1 → ℝ) : HasDerivAt (fun v : ℝ => raw (fun i => y i + v * u i) 5)
    ((-1) * u (.inl (.inl 0)) + (-(1) / 3) * u (.inl (.inl 2)) + (1 / 4) * u (.inr 0)) 0 := by
  have hr0 := hl y u ((.inl (.inl 0)))
  have hr1 := hl y u ((.inl (.inl 1)))
  have hr2 := hl y u ((.inl (.inl 2)))
  have hs0 := hl y u ((.inr 0))
  change HasDerivAt (fun v : ℝ => 1 - (y (.inl (.inl 0)) + v * u (.inl (.inl 0))) - (y (.inl (.inl 2)) + v * u (.inl (.inl 2))) / 3 + (y (.inr
    0) + v * u (.inr 0)) / 4) _ 0
  refine HasDerivAt.congr_deriv (by hdo) ?_
  ring

lemma raw_diff (k : Fin 6) (y : Var 3 1 → ℝ) : DifferentiableAt ℝ (fun y => raw y k) y := by
  fin_cases k
  · change DifferentiableAt ℝ (fun y : Var 3 1 → ℝ => (y (.inl (.inl 0))) + 3 * (y (.inr 0)) / 4) y; ddo
  · change DifferentiableAt ℝ (fun y : Var 3 1 → ℝ => (y (.inl (.inl 1))) + (y (.inl (.inl 2)))) y; ddo
  · change DifferentiableAt ℝ (fun y : Var 3 1 → ℝ => 1 - (y (.inl (.inl 0))) - (y (.inl (.inl 1))) - (y (.inl (.inl 2))) - 3 * (y (.inr 0)) / 4) y; ddo
  · change DifferentiableAt ℝ (fun y : Var 3 1 → ℝ => (y (.inl (.inl 0))) - (y (.inr 0)) / 4) y; ddo
  · change DifferentiableAt ℝ (fun y : Var 3 1 → ℝ => (y (.inl (.inl 2))) / 3) y; ddo
  · change DifferentiableAt ℝ (fun y : Var 3 1 → ℝ => 1 - (y (.inl (.inl 0))) - (y (.inl (.inl 2))) / 3 + (y (.inr 0)) / 4) y; ddo

lemma pos (y : Var 3 1 → ℝ) (hy : Dom y) :
    0 < raw y 0 ∧ 0 < raw y 1 ∧ 0 < raw y 2 ∧ 0 < raw y 3 ∧ 0 < raw y 4 ∧ 0 < raw y 5 ∧ 0 < 1 - 3 * raw y 4 ∧ 0
    < (y (.inl (.inl 1))) := by
  have he := dblEps_pos
  obtain ⟨h0, h1, h2, h3, h4, h5, h6⟩ := hy
  refine ⟨?_, ?_, ?_, ?_, ?_, ?_, ?_, ?_⟩ <;> first | linarith | assumption

lemma c_G {t p r0 r1 r2 s0 xkls xvcls xnals xkss xcass xnass : ℝ → ℝ} {v dt dp dr0 dr1 dr2 ds0 : ℝ} (ht : HasDerivAt t
    dt v) (hp : HasDerivAt p dp v) (hr0 : HasDerivAt r0 dr0 v) (hr1 : HasDerivAt r1 dr1 v) (hr2 : HasDerivAt r2
    dr2 v) (hs0 : HasDerivAt s0 ds0 v) (hxkls : HasDerivAt xkls (1 * dr0 + (3 / 4) * ds0) v) (pxkls : 0 < xkls
    v) (hxvcls : HasDerivAt xvcls (1 * dr1 + 1 * dr2) v) (pxvcls : 0 < xvcls v) (hxnals : HasDerivAt xnals ((-1)
    * dr0 + (-1) * dr1 + (-1) * dr2 + (-(3) / 4) * ds0) v) (pxnals : 0 < xnals v) (hxkss : HasDerivAt xkss (1 *
    dr0 + (-(1) / 4) * ds0) v) (pxkss : 0 < xkss v) (hxcass : HasDerivAt xcass ((1 / 3) * dr2) v) (pxcass : 0 <
    xcass v) (hxnass : HasDerivAt xnass ((-1) * dr0 + (-(1) / 3) * dr2 + (1 / 4) * ds0) v) (pxnass : 0 < xnass
    v) (pz : 0 < 1 - 3 * (xcass v)) (pr1 : 0 < r1 v) :
    HasDerivAt (fun v => G (t v) (p v) (r0 v) (r1 v) (r2 v) (s0 v) (xkls v) (xvcls v) (xnals v) (xkss v) (xcass v) (xnass v))
    (((DGDR0 (t v) (p v) (r0 v) (r1 v) (r2 v) (s0 v) (xkls v) (xnals v) (xkss v) (xnass v)) * dr0 + (DGDR1 (t v)
    (p v) (r0 v) (r1 v) (r2 v) (s0 v) (xvcls v) (xnals v)) * dr1 + (DGDR2 (t v) (p v) (r0 v) (r1 v) (r2 v) (s0
    v) (xvcls v) (xnals v) (xcass v) (xnass v)) * dr2) + ((DGDT (r0 v) (r1 v) (r2 v) (s0 v) (xkls v) (xvcls v)
    (xnals v) (xkss v) (xcass v) (xnass v)) * dt + (DGDP (r0 v) (r1 v) (r2 v) (s0 v)) * dp) + ((DGDS0 (t v) (p
    v) (r0 v) (r1 v) (r2 v) (s0 v) (xkls v) (xnals v) (xkss v) (xnass v)) * ds0)) v := by
  have nxkls := pxkls.ne'
  have nxvcls := pxvcls.ne'
  have nxnals := pxnals.ne'
  have nxkss := pxkss.ne'
  have nxcass := pxcass.ne'
  have nxnass := pxnass.ne'
  have nz := pz.ne'
  have nr1 := pr1.ne'
  try simp only [DWKNALS, DWKNASS, DWVNASS, DWVNALS, DWVKLS, AWLS, AWSS, AWVNA, AWVK, WCANA, WCAK, WPLAG, H, S23, S24, S, VX, V, G, DGDT, DGDP, GX, WNAKLS, WNAKSS, G23, GEX, DGDR0, DGDR1, G4, G24, DGDR2, DGDS0, zero_mul, mul_zero, add_zero, zero_add, sub_zero]
  refine HasDerivAt.congr_deriv (by hdo) ?_
  ring

lemma c_DGDR0 {t p r0 r1 r2 s0 xkls xnals xkss xnass : ℝ → ℝ} {v dt dp dr0 dr1 dr2 ds0 : ℝ} (ht : HasDerivAt t dt v) (hp :
    HasDerivAt p dp v) (hr0 : HasDerivAt r0 dr0 v) (hr1 : HasDerivAt r1 dr1 v) (hr2 : HasDerivAt r2 dr2 v) (hs0
    : HasDerivAt s0 ds0 v) (hxkls : HasDerivAt xkls (1 * dr0 + (3 / 4) * ds0) v) (pxkls : 0 < xkls v) (hxnals :
    HasDerivAt xnals ((-1) * dr0 + (-1) * dr1 + (-1) * dr2 + (-(3) / 4) * ds0) v) (pxnals : 0 < xnals v) (hxkss
    : HasDerivAt xkss (1 * dr0 + (-(1) / 4) * ds0) v) (pxkss : 0 < xkss v) (hxnass : HasDerivAt xnass ((-1) *
    dr0 + (-(1) / 3) * dr2 + (1 / 4) * ds0) v) (pxnass : 0 < xnass v) (pr1 : 0 < r1 v) :
    HasDerivAt (fun v => DGDR0 (t v) (p v) (r0 v) (r1 v) (r2 v) (s0 v) (xkls v) (xnals v) (xkss v) (xnass v))
    (((D2GDR0R0 (t v) (p v) (r0 v) (r1 v) (s0 v) (xkls v) (xnals v) (xkss v) (xnass v)) * dr0 + (D2GDR0R1 (t v)
    (p v) (r0 v) (r1 v) (s0 v) (xnals v)) * dr1 + (D2GDR0R2 (t v) (p v) (xnals v) (xnass v)) * dr2) + ((D2GDR0DT
    (r0 v) (r1 v) (r2 v) (s0 v) (xkls v) (xnals v) (xkss v) (xnass v)) * dt + (D2GDR0DP (r0 v) (r1 v) (r2 v) (s0
    v)) * dp) + ((D2GDR0S0 (t v) (p v) (r0 v) (r1 v) (s0 v) (xkls v) (xnals v) (xkss v) (xnass v)) * ds0)) v := by
  have nxkls := pxkls.ne'
  have nxnals := pxnals.ne'
  have nxkss := pxkss.ne'
  have nxnass := pxnass.ne'
  have nr1 := pr1.ne'
  try simp only [VX, GX, WNAKLS, WNAKSS, S23, G23, GEX, DWKNALS, DWKNASS, DWVNASS, DWVNALS, DWVKLS, AWLS, AWSS, AWVNA, AWVK, WCAK, WCANA, DGDR0, D2GDR0DT, D2GDR0DP, D2GDR0R0, D2GDR0R1, D2GDR0R2, D2GDR0S0, zero_mul, mul_zero, add_zero, zero_add, sub_zero]
  refine HasDerivAt.congr_deriv (by hdo) ?_
  ring

lemma c_DGDR1 {t p r0 r1 r2 s0 xvcls xnals : ℝ → ℝ} {v dt dp dr0 dr1 dr2 ds0 : ℝ} (ht : HasDerivAt t dt v) (hp :
    HasDerivAt p dp v) (hr0 : HasDerivAt r0 dr0 v) (hr1 : HasDerivAt r1 dr1 v) (hr2 : HasDerivAt r2 dr2 v) (hs0
    : HasDerivAt s0 ds0 v) (hxvcls : HasDerivAt xvcls (1 * dr1 + 1 * dr2) v) (pxvcls : 0 < xvcls v) (hxnals :
    HasDerivAt xnals ((-1) * dr0 + (-1) * dr1 + (-1) * dr2 + (-(3) / 4) * ds0) v) (pxnals : 0 < xnals v) (pr1 :
    0 < r1 v) :
    HasDerivAt (fun v => DGDR1 (t v) (p v) (r0 v) (r1 v) (r2 v) (s0 v) (xvcls v) (xnals v))
    (((D2GDR0R1 (t v) (p v) (r0 v) (r1 v) (s0 v) (xnals v)) * dr0 + (D2GDR1R1 (t v) (r0 v) (r1 v) (s0 v) (xvcls
    v) (xnals v)) * dr1 + (D2GDR1R2 (t v) (xvcls v) (xnals v)) * dr2) + ((D2GDR1DT (r0 v) (s0 v) (xvcls v)
    (xnals v)) * dt + (D2GDR1DP (r0 v) (s0 v)) * dp) + ((D2GDR1S0 (t v) (p v) (r1 v) (s0 v) (xnals v)) * ds0)) v := by
  have nxvcls := pxvcls.ne'
  have nxnals := pxnals.ne'
  have nr1 := pr1.ne'
  try simp only [S23, G23, GEX, VX, GX, WNAKLS, DWKNALS, DWVNASS, DWVNALS, DWVKLS, AWLS, AWVNA, AWVK, WPLAG, WCANA, DGDR1, D2GDR1DT, D2GDR1DP, D2GDR0R1, D2GDR1R1, D2GDR1R2, D2GDR1S0, zero_mul, mul_zero, add_zero, zero_add, sub_zero]
  refine HasDerivAt.congr_deriv (by hdo) ?_
  ring

lemma c_DGDR2 {t p r0 r1 r2 s0 xvcls xnals xcass xnass : ℝ → ℝ} {v dt dp dr0 dr1 dr2 ds0 : ℝ} (ht : HasDerivAt t dt v) (hp
    : HasDerivAt p dp v) (hr0 : HasDerivAt r0 dr0 v) (hr1 : HasDerivAt r1 dr1 v) (hr2 : HasDerivAt r2 dr2 v)
    (hs0 : HasDerivAt s0 ds0 v) (hxvcls : HasDerivAt xvcls (1 * dr1 + 1 * dr2) v) (pxvcls : 0 < xvcls v) (hxnals
    : HasDerivAt xnals ((-1) * dr0 + (-1) * dr1 + (-1) * dr2 + (-(3) / 4) * ds0) v) (pxnals : 0 < xnals v)
    (hxcass : HasDerivAt xcass ((1 / 3) * dr2) v) (pxcass : 0 < xcass v) (hxnass : HasDerivAt xnass ((-1) * dr0
    + (-(1) / 3) * dr2 + (1 / 4) * ds0) v) (pxnass : 0 < xnass v) (pz : 0 < 1 - 3 * (xcass v)) (pr1 : 0 < r1 v) :
    HasDerivAt (fun v => DGDR2 (t v) (p v) (r0 v) (r1 v) (r2 v) (s0 v) (xvcls v) (xnals v) (xcass v) (xnass v))
    (((D2GDR0R2 (t v) (p v) (xnals v) (xnass v)) * dr0 + (D2GDR1R2 (t v) (xvcls v) (xnals v)) * dr1 + (D2GDR2R2
    (t v) (xvcls v) (xnals v) (xcass v) (xnass v)) * dr2) + ((D2GDR2DT (r0 v) (s0 v) (xvcls v) (xnals v) (xcass
    v) (xnass v)) * dt + (D2GDR2DP (r0 v) (s0 v)) * dp) + ((D2GDR2S0 (t v) (p v) (xnals v) (xnass v)) * ds0)) v := by
  have nxvcls := pxvcls.ne'
  have nxnals := pxnals.ne'
  have nxcass := pxcass.ne'
  have nxnass := pxnass.ne'
  have nz := pz.ne'
  have nr1 := pr1.ne'
  try simp only [G4, WCANA, S23, G23, GEX, VX, GX, WNAKLS, WNAKSS, WCAK, WPLAG, S24, G24, DGDR2, D2GDR2DT, D2GDR2DP, D2GDR0R2, D2GDR1R2, D2GDR2R2, D2GDR2S0, zero_mul, mul_zero, add_zero, zero_add, sub_zero]
  refine HasDerivAt.congr_deriv (by hdo) ?_
  ring

lemma c_DGDS0 {t p r0 r1 r2 s0 xkls xnals xkss xnass : ℝ → ℝ} {v dt dp dr0 dr1 dr2 ds0 : ℝ} (ht : HasDerivAt t dt v) (hp :
    HasDerivAt p dp v) (hr0 : HasDerivAt r0 dr0 v) (hr1 : HasDerivAt r1 dr1 v) (hr2 : HasDerivAt r2 dr2 v) (hs0
    : HasDerivAt s0 ds0 v) (hxkls : HasDerivAt xkls (1 * dr0 + (3 / 4) * ds0) v) (pxkls : 0 < xkls v) (hxnals :
    HasDerivAt xnals ((-1) * dr0 + (-1) * dr1 + (-1) * dr2 + (-(3) / 4) * ds0) v) (pxnals : 0 < xnals v) (hxkss
    : HasDerivAt xkss (1 * dr0 + (-(1) / 4) * ds0) v) (pxkss : 0 < xkss v) (hxnass : HasDerivAt xnass ((-1) *
    dr0 + (-(1) / 3) * dr2 + (1 / 4) * ds0) v) (pxnass : 0 < xnass v) (pr1 : 0 < r1 v) :
    HasDerivAt (fun v => DGDS0 (t v) (p v) (r0 v) (r1 v) (r2 v) (s0 v) (xkls v) (xnals v) (xkss v) (xnass v))
    (((D2GDR0S0 (t v) (p v) (r0 v) (r1 v) (s0 v) (xkls v) (xnals v) (xkss v) (xnass v)) * dr0 + (D2GDR1S0 (t v)
    (p v) (r1 v) (s0 v) (xnals v)) * dr1 + (D2GDR2S0 (t v) (p v) (xnals v) (xnass v)) * dr2) + ((D2GDS0DT (r0 v)
    (r1 v) (r2 v) (s0 v) (xkls v) (xnals v) (xkss v) (xnass v)) * dt + (D2GDS0DP (r0 v) (r1 v) (r2 v) (s0 v)) *
    dp) + ((D2GDS0S0 (t v) (p v) (r0 v) (r1 v) (s0 v) (xkls v) (xnals v) (xkss v) (xnass v)) * ds0)) v := by
  have nxkls := pxkls.ne'
  have nxnals := pxnals.ne'
  have nxkss := pxkss.ne'
  have nxnass := pxnass.ne'
  have nr1 := pr1.ne'
  try simp only [GEX, VX, GX, WNAKLS, WNAKSS, S23, G23, DWKNALS, DWKNASS, DWVNASS, DWVNALS, DWVKLS, AWLS, AWSS, AWVNA, AWVK, WCAK, WCANA, S24, G24, DGDS0, D2GDS0DT, D2GDS0DP, D2GDR0S0, D2GDR1S0, D2GDR2S0, D2GDS0S0, zero_mul, mul_zero, add_zero, zero_add, sub_zero]
  refine HasDerivAt.congr_deriv (by hdo) ?_
  ring

lemma c_DGDT {t p r0 r1 r2 s0 xkls xvcls xnals xkss xcass xnass : ℝ → ℝ} {v dt dp dr0 dr1 dr2 ds0 : ℝ} (ht : HasDerivAt t
    dt v) (hp : HasDerivAt p dp v) (hr0 : HasDerivAt r0 dr0 v) (hr1 : HasDerivAt r1 dr1 v) (hr2 : HasDerivAt r2
    dr2 v) (hs0 : HasDerivAt s0 ds0 v) (hxkls : HasDerivAt xkls (1 * dr0 + (3 / 4) * ds0) v) (pxkls : 0 < xkls
    v) (hxvcls : HasDerivAt xvcls (1 * dr1 + 1 * dr2) v) (pxvcls : 0 < xvcls v) (hxnals : HasDerivAt xnals ((-1)
    * dr0 + (-1) * dr1 + (-1) * dr2 + (-(3) / 4) * ds0) v) (pxnals : 0 < xnals v) (hxkss : HasDerivAt xkss (1 *
    dr0 + (-(1) / 4) * ds0) v) (pxkss : 0 < xkss v) (hxcass : HasDerivAt xcass ((1 / 3) * dr2) v) (pxcass : 0 <
    xcass v) (hxnass : HasDerivAt xnass ((-1) * dr0 + (-(1) / 3) * dr2 + (1 / 4) * ds0) v) (pxnass : 0 < xnass
    v) (pz : 0 < 1 - 3 * (xcass v)) (pr1 : 0 < r1 v) :
    HasDerivAt (fun v => DGDT (r0 v) (r1 v) (r2 v) (s0 v) (xkls v) (xvcls v) (xnals v) (xkss v) (xcass v) (xnass v))
    (((D2GDR0DT (r0 v) (r1 v) (r2 v) (s0 v) (xkls v) (xnals v) (xkss v) (xnass v)) * dr0 + (D2GDR1DT (r0 v) (s0
    v) (xvcls v) (xnals v)) * dr1 + (D2GDR2DT (r0 v) (s0 v) (xvcls v) (xnals v) (xcass v) (xnass v)) * dr2) +
    (D2GDT2 * dt + D2GDTDP * dp) + ((D2GDS0DT (r0 v) (r1 v) (r2 v) (s0 v) (xkls v) (xnals v) (xkss v) (xnass v))
    * ds0)) v := by
  have nxkls := pxkls.ne'
  have nxvcls := pxvcls.ne'
  have nxnals := pxnals.ne'
  have nxkss := pxkss.ne'
  have nxcass := pxcass.ne'
  have nxnass := pxnass.ne'
  have nz := pz.ne'
  have nr1 := pr1.ne'
  try simp only [S23, S24, S, DGDT, D2GDT2, D2GDTDP, D2GDR0DT, D2GDR1DT, D2GDR2DT, D2GDS0DT, zero_mul, mul_zero, add_zero, zero_add, sub_zero]
  refine HasDerivAt.congr_deriv (by hdo) ?_
  ring

lemma c_DGDP {t p r0 r1 r2 s0 : ℝ → ℝ} {v dt dp dr0 dr1 dr2 ds0 : ℝ} (ht : HasDerivAt t dt v) (hp : HasDerivAt p dp v)
    (hr0 : HasDerivAt r0 dr0 v) (hr1 : HasDerivAt r1 dr1 v) (hr2 : HasDerivAt r2 dr2 v) (hs0 : HasDerivAt s0 ds0
    v) (pr1 : 0 < r1 v) :
    HasDerivAt (fun v => DGDP (r0 v) (r1 v) (r2 v) (s0 v))
    (((D2GDR0DP (r0 v) (r1 v) (r2 v) (s0 v)) * dr0 + (D2GDR1DP (r0 v) (s0 v)) * dr1 + (D2GDR2DP (r0 v) (s0 v)) *
    dr2) + (D2GDTDP * dt + D2GDP2 * dp) + ((D2GDS0DP (r0 v) (r1 v) (r2 v) (s0 v)) * ds0)) v := by
  have nr1 := pr1.ne'
  try simp only [VX, V, DGDP, D2GDTDP, D2GDP2, D2GDR0DP, D2GDR1DP, D2GDR2DP, D2GDS0DP, zero_mul, mul_zero, add_zero, zero_add, sub_zero]
  refine HasDerivAt.congr_deriv (by hdo) ?_
  ring

lemma c_D2GDR0R0 {t p r0 r1 r2 s0 xkls xnals xkss xnass : ℝ → ℝ} {v dt dp dr0 dr1 dr2 ds0 : ℝ} (ht : HasDerivAt t dt v) (hp :
    HasDerivAt p dp v) (hr0 : HasDerivAt r0 dr0 v) (hr1 : HasDerivAt r1 dr1 v) (hr2 : HasDerivAt r2 dr2 v) (hs0
    : HasDerivAt s0 ds0 v) (hxkls : HasDerivAt xkls (1 * dr0 + (3 / 4) * ds0) v) (pxkls : 0 < xkls v) (hxnals :
    HasDerivAt xnals ((-1) * dr0 + (-1) * dr1 + (-1) * dr2 + (-(3) / 4) * ds0) v) (pxnals : 0 < xnals v) (hxkss
    : HasDerivAt xkss (1 * dr0 + (-(1) / 4) * ds0) v) (pxkss : 0 < xkss v) (hxnass : HasDerivAt xnass ((-1) *
    dr0 + (-(1) / 3) * dr2 + (1 / 4) * ds0) v) (pxnass : 0 < xnass v) (pr1 : 0 < r1 v) :
    HasDerivAt (fun v => D2GDR0R0 (t v) (p v) (r0 v) (r1 v) (s0 v) (xkls v) (xnals v) (xkss v) (xnass v))
    (((D3GDR0R0R0 (t v) (xkls v) (xnals v) (xkss v) (xnass v)) * dr0 + (D3GDR0R0R1 (t v) (xnals v)) * dr1 +
    (D3GDR0R0R2 (t v) (xnals v) (xnass v)) * dr2) + ((D3GDR0R0DT (xkls v) (xnals v) (xkss v) (xnass v)) * dt +
    D3GDR0R0DP * dp) + ((D3GDR0R0S0 (t v) (xkls v) (xnals v) (xkss v) (xnass v)) * ds0)) v := by
  have nxkls := pxkls.ne'
  have nxnals := pxnals.ne'
  have nxkss := pxkss.ne'
  have nxnass := pxnass.ne'
  have nr1 := pr1.ne'
  try simp only [VX, GX, WNAKLS, WNAKSS, DWKNALS, DWKNASS, DWVNASS, DWVNALS, DWVKLS, AWLS, AWSS, D2GDR0R0, D3GDR0R0DT, D3GDR0R0DP, D3GDR0R0R0, D3GDR0R0R1, D3GDR0R0R2, D3GDR0R0S0, zero_mul, mul_zero, add_zero, zero_add, sub_zero]
  refine HasDerivAt.congr_deriv (by hdo) ?_
  ring

lemma c_D2GDR0R1 {t p r0 r1 r2 s0 xnals : ℝ → ℝ} {v dt dp dr0 dr1 dr2 ds0 : ℝ} (ht : HasDerivAt t dt v) (hp : HasDerivAt p dp
    v) (hr0 : HasDerivAt r0 dr0 v) (hr1 : HasDerivAt r1 dr1 v) (hr2 : HasDerivAt r2 dr2 v) (hs0 : HasDerivAt s0
    ds0 v) (hxnals : HasDerivAt xnals ((-1) * dr0 + (-1) * dr1 + (-1) * dr2 + (-(3) / 4) * ds0) v) (pxnals : 0 <
    xnals v) (pr1 : 0 < r1 v) :
    HasDerivAt (fun v => D2GDR0R1 (t v) (p v) (r0 v) (r1 v) (s0 v) (xnals v))
    (((D3GDR0R0R1 (t v) (xnals v)) * dr0 + (D3GDR0R1R1 (t v) (xnals v)) * dr1 + (D3GDR0R1R2 (t v) (xnals v)) *
    dr2) + ((D3GDR0R1DT (xnals v)) * dt + D3GDR0R1DP * dp) + ((D3GDR0R1S0 (t v) (s0 v) (xnals v)) * ds0)) v := by
  have nxnals := pxnals.ne'
  have nr1 := pr1.ne'
  try simp only [S23, G23, GEX, VX, GX, WNAKLS, DWKNALS, DWVNASS, DWVNALS, DWVKLS, AWLS, AWVNA, AWVK, D2GDR0R1, D3GDR0R1DT, D3GDR0R1DP, D3GDR0R0R1, D3GDR0R1R1, D3GDR0R1R2, D3GDR0R1S0, zero_mul, mul_zero, add_zero, zero_add, sub_zero]
  refine HasDerivAt.congr_deriv (by hdo) ?_
  ring

lemma c_D2GDR0R2 {t p r0 r1 r2 s0 xnals xnass : ℝ → ℝ} {v dt dp dr0 dr1 dr2 ds0 : ℝ} (ht : HasDerivAt t dt v) (hp :
    HasDerivAt p dp v) (hr0 : HasDerivAt r0 dr0 v) (hr1 : HasDerivAt r1 dr1 v) (hr2 : HasDerivAt r2 dr2 v) (hs0
    : HasDerivAt s0 ds0 v) (hxnals : HasDerivAt xnals ((-1) * dr0 + (-1) * dr1 + (-1) * dr2 + (-(3) / 4) * ds0)
    v) (pxnals : 0 < xnals v) (hxnass : HasDerivAt xnass ((-1) * dr0 + (-(1) / 3) * dr2 + (1 / 4) * ds0) v)
    (pxnass : 0 < xnass v) :
    HasDerivAt (fun v => D2GDR0R2 (t v) (p v) (xnals v) (xnass v))
    (((D3GDR0R0R2 (t v) (xnals v) (xnass v)) * dr0 + (D3GDR0R1R2 (t v) (xnals v)) * dr1 + (D3GDR0R2R2 (t v)
    (xnals v) (xnass v)) * dr2) + ((D3GDR0R2DT (xnals v) (xnass v)) * dt + D3GDR0R2DP * dp) + ((D3GDR0R2S0 (t v)
    (xnals v) (xnass v)) * ds0)) v := by
  have nxnals := pxnals.ne'
  have nxnass := pxnass.ne'
  try simp only [S23, G23, GEX, VX, GX, WNAKLS, WNAKSS, WCAK, WCANA, D2GDR0R2, D3GDR0R2DT, D3GDR0R2DP, D3GDR0R0R2, D3GDR0R1R2, D3GDR0R2R2, D3GDR0R2S0, zero_mul, mul_zero, add_zero, zero_add, sub_zero]
  refine HasDerivAt.congr_deriv (by hdo) ?_
  ring

lemma c_D2GDR0S0 {t p r0 r1 r2 s0 xkls xnals xkss xnass : ℝ → ℝ} {v dt dp dr0 dr1 dr2 ds0 : ℝ} (ht : HasDerivAt t dt v) (hp :
    HasDerivAt p dp v) (hr0 : HasDerivAt r0 dr0 v) (hr1 : HasDerivAt r1 dr1 v) (hr2 : HasDerivAt r2 dr2 v) (hs0
    : HasDerivAt s0 ds0 v) (hxkls : HasDerivAt xkls (1 * dr0 + (3 / 4) * ds0) v) (pxkls : 0 < xkls v) (hxnals :
    HasDerivAt xnals ((-1) * dr0 + (-1) * dr1 + (-1) * dr2 + (-(3) / 4) * ds0) v) (pxnals : 0 < xnals v) (hxkss
    : HasDerivAt xkss (1 * dr0 + (-(1) / 4) * ds0) v) (pxkss : 0 < xkss v) (hxnass : HasDerivAt xnass ((-1) *
    dr0 + (-(1) / 3) * dr2 + (1 / 4) * ds0) v) (pxnass : 0 < xnass v) (pr1 : 0 < r1 v) :
    HasDerivAt (fun v => D2GDR0S0 (t v) (p v) (r0 v) (r1 v) (s0 v) (xkls v) (xnals v) (xkss v) (xnass v))
    (((D3GDR0R0S0 (t v) (xkls v) (xnals v) (xkss v) (xnass v)) * dr0 + (D3GDR0R1S0 (t v) (s0 v) (xnals v)) * dr1
    + (D3GDR0R2S0 (t v) (xnals v) (xnass v)) * dr2) + ((D3GDR0S0DT (xkls v) (xnals v) (xkss v) (xnass v)) * dt +
    D3GDR0S0DP * dp) + ((D3GDR0S0S0 (t v) (r1 v) (xkls v) (xnals v) (xkss v) (xnass v)) * ds0)) v := by
  have nxkls := pxkls.ne'
  have nxnals := pxnals.ne'
  have nxkss := pxkss.ne'
  have nxnass := pxnass.ne'
  have nr1 := pr1.ne'
  try simp only [VX, GX, WNAKLS, WNAKSS, DWKNALS, DWKNASS, AWLS, AWSS, D2GDR0S0, D3GDR0S0DT, D3GDR0S0DP, D3GDR0R0S0, D3GDR0R1S0, D3GDR0R2S0, D3GDR0S0S0, zero_mul, mul_zero, add_zero, zero_add, sub_zero]
  refine HasDerivAt.congr_deriv (by hdo) ?_
  ring

lemma c_D2GDR0DT {t p r0 r1 r2 s0 xkls xnals xkss xnass : ℝ → ℝ} {v dt dp dr0 dr1 dr2 ds0 : ℝ} (ht : HasDerivAt t dt v) (hp :
    HasDerivAt p dp v) (hr0 : HasDerivAt r0 dr0 v) (hr1 : HasDerivAt r1 dr1 v) (hr2 : HasDerivAt r2 dr2 v) (hs0
    : HasDerivAt s0 ds0 v) (hxkls : HasDerivAt xkls (1 * dr0 + (3 / 4) * ds0) v) (pxkls : 0 < xkls v) (hxnals :
    HasDerivAt xnals ((-1) * dr0 + (-1) * dr1 + (-1) * dr2 + (-(3) / 4) * ds0) v) (pxnals : 0 < xnals v) (hxkss
    : HasDerivAt xkss (1 * dr0 + (-(1) / 4) * ds0) v) (pxkss : 0 < xkss v) (hxnass : HasDerivAt xnass ((-1) *
    dr0 + (-(1) / 3) * dr2 + (1 / 4) * ds0) v) (pxnass : 0 < xnass v) (pr1 : 0 < r1 v) :
    HasDerivAt (fun v => D2GDR0DT (r0 v) (r1 v) (r2 v) (s0 v) (xkls v) (xnals v) (xkss v) (xnass v))
    (((D3GDR0R0DT (xkls v) (xnals v) (xkss v) (xnass v)) * dr0 + (D3GDR0R1DT (xnals v)) * dr1 + (D3GDR0R2DT
    (xnals v) (xnass v)) * dr2) + (D3GDR0DT2 * dt + D3GDR0DTDP * dp) + ((D3GDR0S0DT (xkls v) (xnals v) (xkss v)
    (xnass v)) * ds0)) v := by
  have nxkls := pxkls.ne'
  have nxnals := pxnals.ne'
  have nxkss := pxkss.ne'
  have nxnass := pxnass.ne'
  have nr1 := pr1.ne'
  try simp only [S23, D2GDR0DT, D3GDR0DT2, D3GDR0DTDP, D3GDR0R0DT, D3GDR0R1DT, D3GDR0R2DT, D3GDR0S0DT, zero_mul, mul_zero, add_zero, zero_add, sub_zero]
  refine HasDerivAt.congr_deriv (by hdo) ?_
  ring

lemma c_D2GDR0DP {t p r0 r1 r2 s0 : ℝ → ℝ} {v dt dp dr0 dr1 dr2 ds0 : ℝ} (ht : HasDerivAt t dt v) (hp : HasDerivAt p dp v)
    (hr0 : HasDerivAt r0 dr0 v) (hr1 : HasDerivAt r1 dr1 v) (hr2 : HasDerivAt r2 dr2 v) (hs0 : HasDerivAt s0 ds0
    v) (pr1 : 0 < r1 v) :
    HasDerivAt (fun v => D2GDR0DP (r0 v) (r1 v) (r2 v) (s0 v))
    ((D3GDR0R0DP * dr0 + D3GDR0R1DP * dr1 + D3GDR0R2DP * dr2) + (D3GDR0DTDP * dt + D3GDR0DP2 * dp) + (D3GDR0S0DP
    * ds0)) v := by
  have nr1 := pr1.ne'
  try simp only [VX, D2GDR0DP, D3GDR0DTDP, D3GDR0DP2, D3GDR0R0DP, D3GDR0R1DP, D3GDR0R2DP, D3GDR0S0DP, zero_mul, mul_zero, add_zero, zero_add, sub_zero]
  refine HasDerivAt.congr_deriv (by hdo) ?_
  ring

lemma c_D2GDR1R1 {t p r0 r1 r2 s0 xvcls xnals : ℝ → ℝ} {v dt dp dr0 dr1 dr2 ds0 : ℝ} (ht : HasDerivAt t dt v) (hp :
    HasDerivAt p dp v) (hr0 : HasDerivAt r0 dr0 v) (hr1 : HasDerivAt r1 dr1 v) (hr2 : HasDerivAt r2 dr2 v) (hs0
    : HasDerivAt s0 ds0 v) (hxvcls : HasDerivAt xvcls (1 * dr1 + 1 * dr2) v) (pxvcls : 0 < xvcls v) (hxnals :
    HasDerivAt xnals ((-1) * dr0 + (-1) * dr1 + (-1) * dr2 + (-(3) / 4) * ds0) v) (pxnals : 0 < xnals v) (pr1 :
    0 < r1 v) :
    HasDerivAt (fun v => D2GDR1R1 (t v) (r0 v) (r1 v) (s0 v) (xvcls v) (xnals v))
    (((D3GDR0R1R1 (t v) (xnals v)) * dr0 + (D3GDR1R1R1 (t v) (r1 v) (xvcls v) (xnals v)) * dr1 + (D3GDR1R1R2 (t
    v) (xvcls v) (xnals v)) * dr2) + ((D3GDR1R1DT (xvcls v) (xnals v)) * dt + D3GDR1R1DP * dp) + ((D3GDR1R1S0 (t
    v) (xnals v)) * ds0)) v := by
  have nxvcls := pxvcls.ne'
  have nxnals := pxnals.ne'
  have nr1 := pr1.ne'
  try simp only [DWKNALS, DWVNASS, DWVNALS, DWVKLS, AWLS, AWVNA, AWVK, D2GDR1R1, D3GDR1R1DT, D3GDR1R1DP, D3GDR0R1R1, D3GDR1R1R1, D3GDR1R1R2, D3GDR1R1S0, zero_mul, mul_zero, add_zero, zero_add, sub_zero]
  refine HasDerivAt.congr_deriv (by hdo) ?_
  ring

lemma c_D2GDR1R2 {t p r0 r1 r2 s0 xvcls xnals : ℝ → ℝ} {v dt dp dr0 dr1 dr2 ds0 : ℝ} (ht : HasDerivAt t dt v) (hp :
    HasDerivAt p dp v) (hr0 : HasDerivAt r0 dr0 v) (hr1 : HasDerivAt r1 dr1 v) (hr2 : HasDerivAt r2 dr2 v) (hs0
    : HasDerivAt s0 ds0 v) (hxvcls : HasDerivAt xvcls (1 * dr1 + 1 * dr2) v) (pxvcls : 0 < xvcls v) (hxnals :
    HasDerivAt xnals ((-1) * dr0 + (-1) * dr1 + (-1) * dr2 + (-(3) / 4) * ds0) v) (pxnals : 0 < xnals v) :
    HasDerivAt (fun v => D2GDR1R2 (t v) (xvcls v) (xnals v))
    (((D3GDR0R1R2 (t v) (xnals v)) * dr0 + (D3GDR1R1R2 (t v) (xvcls v) (xnals v)) * dr1 + (D3GDR1R2R2 (t v)
    (xvcls v) (xnals v)) * dr2) + ((D3GDR1R2DT (xvcls v) (xnals v)) * dt + D3GDR1R2DP * dp) + ((D3GDR1R2S0 (t v)
    (xnals v)) * ds0)) v := by
  have nxvcls := pxvcls.ne'
  have nxnals := pxnals.ne'
  try simp only [WPLAG, WCANA, D2GDR1R2, D3GDR1R2DT, D3GDR1R2DP, D3GDR0R1R2, D3GDR1R1R2, D3GDR1R2R2, D3GDR1R2S0, zero_mul, mul_zero, add_zero, zero_add, sub_zero]
  refine HasDerivAt.congr_deriv (by hdo) ?_
  ring

lemma c_D2GDR1S0 {t p r0 r1 r2 s0 xnals : ℝ → ℝ} {v dt dp dr0 dr1 dr2 ds0 : ℝ} (ht : HasDerivAt t dt v) (hp : HasDerivAt p dp
    v) (hr0 : HasDerivAt r0 dr0 v) (hr1 : HasDerivAt r1 dr1 v) (hr2 : HasDerivAt r2 dr2 v) (hs0 : HasDerivAt s0
    ds0 v) (hxnals : HasDerivAt xnals ((-1) * dr0 + (-1) * dr1 + (-1) * dr2 + (-(3) / 4) * ds0) v) (pxnals : 0 <
    xnals v) (pr1 : 0 < r1 v) :
    HasDerivAt (fun v => D2GDR1S0 (t v) (p v) (r1 v) (s0 v) (xnals v))
    (((D3GDR0R1S0 (t v) (s0 v) (xnals v)) * dr0 + (D3GDR1R1S0 (t v) (xnals v)) * dr1 + (D3GDR1R2S0 (t v) (xnals
    v)) * dr2) + ((D3GDR1S0DT (xnals v)) * dt + D3GDR1S0DP * dp) + ((D3GDR1S0S0 (t v) (xnals v)) * ds0)) v := by
  have nxnals := pxnals.ne'
  have nr1 := pr1.ne'
  try simp only [VX, GX, GEX, S23, G23, WNAKLS, DWKNALS, DWVNASS, DWVNALS, DWVKLS, AWLS, AWVNA, AWVK, D2GDR1S0, D3GDR1S0DT, D3GDR1S0DP, D3GDR0R1S0, D3GDR1R1S0, D3GDR1R2S0, D3GDR1S0S0, zero_mul, mul_zero, add_zero, zero_add, sub_zero]
  refine HasDerivAt.congr_deriv (by hdo) ?_
  ring

lemma c_D2GDR1DT {t p r0 r1 r2 s0 xvcls xnals : ℝ → ℝ} {v dt dp dr0 dr1 dr2 ds0 : ℝ} (ht : HasDerivAt t dt v) (hp :
    HasDerivAt p dp v) (hr0 : HasDerivAt r0 dr0 v) (hr1 : HasDerivAt r1 dr1 v) (hr2 : HasDerivAt r2 dr2 v) (hs0
    : HasDerivAt s0 ds0 v) (hxvcls : HasDerivAt xvcls (1 * dr1 + 1 * dr2) v) (pxvcls : 0 < xvcls v) (hxnals :
    HasDerivAt xnals ((-1) * dr0 + (-1) * dr1 + (-1) * dr2 + (-(3) / 4) * ds0) v) (pxnals : 0 < xnals v) :
    HasDerivAt (fun v => D2GDR1DT (r0 v) (s0 v) (xvcls v) (xnals v))
    (((D3GDR0R1DT (xnals v)) * dr0 + (D3GDR1R1DT (xvcls v) (xnals v)) * dr1 + (D3GDR1R2DT (xvcls v) (xnals v)) *
    dr2) + (D3GDR1DT2 * dt + D3GDR1DTDP * dp) + ((D3GDR1S0DT (xnals v)) * ds0)) v := by
  have nxvcls := pxvcls.ne'
  have nxnals := pxnals.ne'
  try simp only [S23, D2GDR1DT, D3GDR1DT2, D3GDR1DTDP, D3GDR0R1DT, D3GDR1R1DT, D3GDR1R2DT, D3GDR1S0DT, zero_mul, mul_zero, add_zero, zero_add, sub_zero]
  refine HasDerivAt.congr_deriv (by hdo) ?_
  ring

lemma c_D2GDR1DP {t p r0 r1 r2 s0 : ℝ → ℝ} {v dt dp dr0 dr1 dr2 ds0 : ℝ} (ht : HasDerivAt t dt v) (hp : HasDerivAt p dp v)
    (hr0 : HasDerivAt r0 dr0 v) (hr1 : HasDerivAt r1 dr1 v) (hr2 : HasDerivAt r2 dr2 v) (hs0 : HasDerivAt s0 ds0
    v) :
    HasDerivAt (fun v => D2GDR1DP (r0 v) (s0 v))
    ((D3GDR0R1DP * dr0 + D3GDR1R1DP * dr1 + D3GDR1R2DP * dr2) + (D3GDR1DTDP * dt + D3GDR1DP2 * dp) + (D3GDR1S0DP
    * ds0)) v := by
  try simp only [VX, D2GDR1DP, D3GDR1DTDP, D3GDR1DP2, D3GDR0R1DP, D3GDR1R1DP, D3GDR1R2DP, D3GDR1S0DP, zero_mul, mul_zero, add_zero, zero_add, sub_zero]
  refine HasDerivAt.congr_deriv (by hdo) ?_
  ring

lemma c_D2GDR2R2 {t p r0 r1 r2 s0 xvcls xnals xcass xnass : ℝ → ℝ} {v dt dp dr0 dr1 dr2 ds0 : ℝ} (ht : HasDerivAt t dt v) (hp
    : HasDerivAt p dp v) (hr0 : HasDerivAt r0 dr0 v) (hr1 : HasDerivAt r1 dr1 v) (hr2 : HasDerivAt r2 dr2 v)
    (hs0 : HasDerivAt s0 ds0 v) (hxvcls : HasDerivAt xvcls (1 * dr1 + 1 * dr2) v) (pxvcls : 0 < xvcls v) (hxnals
    : HasDerivAt xnals ((-1) * dr0 + (-1) * dr1 + (-1) * dr2 + (-(3) / 4) * ds0) v) (pxnals : 0 < xnals v)
    (hxcass : HasDerivAt xcass ((1 / 3) * dr2) v) (pxcass : 0 < xcass v) (hxnass : HasDerivAt xnass ((-1) * dr0
    + (-(1) / 3) * dr2 + (1 / 4) * ds0) v) (pxnass : 0 < xnass v) (pz : 0 < 1 - 3 * (xcass v)) :
    HasDerivAt (fun v => D2GDR2R2 (t v) (xvcls v) (xnals v) (xcass v) (xnass v))
    (((D3GDR0R2R2 (t v) (xnals v) (xnass v)) * dr0 + (D3GDR1R2R2 (t v) (xvcls v) (xnals v)) * dr1 + (D3GDR2R2R2
    (t v) (xvcls v) (xnals v) (xcass v) (xnass v)) * dr2) + ((D3GDR2R2DT (xvcls v) (xnals v) (xcass v) (xnass
    v)) * dt + D3GDR2R2DP * dp) + ((D3GDR2R2S0 (t v) (xnals v) (xnass v)) * ds0)) v := by
  have nxvcls := pxvcls.ne'
  have nxnals := pxnals.ne'
  have nxcass := pxcass.ne'
  have nxnass := pxnass.ne'
  have nz := pz.ne'
  try simp only [WCANA, D2GDR2R2, D3GDR2R2DT, D3GDR2R2DP, D3GDR0R2R2, D3GDR1R2R2, D3GDR2R2R2, D3GDR2R2S0, zero_mul, mul_zero, add_zero, zero_add, sub_zero]
  refine HasDerivAt.congr_deriv (by hdo) ?_
  ring

lemma c_D2GDR2S0 {t p r0 r1 r2 s0 xnals xnass : ℝ → ℝ} {v dt dp dr0 dr1 dr2 ds0 : ℝ} (ht : HasDerivAt t dt v) (hp :
    HasDerivAt p dp v) (hr0 : HasDerivAt r0 dr0 v) (hr1 : HasDerivAt r1 dr1 v) (hr2 : HasDerivAt r2 dr2 v) (hs0
    : HasDerivAt s0 ds0 v) (hxnals : HasDerivAt xnals ((-1) * dr0 + (-1) * dr1 + (-1) * dr2 + (-(3) / 4) * ds0)
    v) (pxnals : 0 < xnals v) (hxnass : HasDerivAt xnass ((-1) * dr0 + (-(1) / 3) * dr2 + (1 / 4) * ds0) v)
    (pxnass : 0 < xnass v) :
    HasDerivAt (fun v => D2GDR2S0 (t v) (p v) (xnals v) (xnass v))
    (((D3GDR0R2S0 (t v) (xnals v) (xnass v)) * dr0 + (D3GDR1R2S0 (t v) (xnals v)) * dr1 + (D3GDR2R2S0 (t v)
    (xnals v) (xnass v)) * dr2) + ((D3GDR2S0DT (xnals v) (xnass v)) * dt + D3GDR2S0DP * dp) + ((D3GDR2S0S0 (t v)
    (xnals v) (xnass v)) * ds0)) v := by
  have nxnals := pxnals.ne'
  have nxnass := pxnass.ne'
  try simp only [WCAK, WCANA, WNAKLS, WNAKSS, GEX, VX, GX, S23, G23, S24, G24, D2GDR2S0, D3GDR2S0DT, D3GDR2S0DP, D3GDR0R2S0, D3GDR1R2S0, D3GDR2R2S0, D3GDR2S0S0, zero_mul, mul_zero, add_zero, zero_add, sub_zero]
  refine HasDerivAt.congr_deriv (by hdo) ?_
  ring

lemma c_D2GDR2DT {t p r0 r1 r2 s0 xvcls xnals xcass xnass : ℝ → ℝ} {v dt dp dr0 dr1 dr2 ds0 : ℝ} (ht : HasDerivAt t dt v) (hp
    : HasDerivAt p dp v) (hr0 : HasDerivAt r0 dr0 v) (hr1 : HasDerivAt r1 dr1 v) (hr2 : HasDerivAt r2 dr2 v)
    (hs0 : HasDerivAt s0 ds0 v) (hxvcls : HasDerivAt xvcls (1 * dr1 + 1 * dr2) v) (pxvcls : 0 < xvcls v) (hxnals
    : HasDerivAt xnals ((-1) * dr0 + (-1) * dr1 + (-1) * dr2 + (-(3) / 4) * ds0) v) (pxnals : 0 < xnals v)
    (hxcass : HasDerivAt xcass ((1 / 3) * dr2) v) (pxcass : 0 < xcass v) (hxnass : HasDerivAt xnass ((-1) * dr0
    + (-(1) / 3) * dr2 + (1 / 4) * ds0) v) (pxnass : 0 < xnass v) (pz : 0 < 1 - 3 * (xcass v)) :
    HasDerivAt (fun v => D2GDR2DT (r0 v) (s0 v) (xvcls v) (xnals v) (xcass v) (xnass v))
    (((D3GDR0R2DT (xnals v) (xnass v)) * dr0 + (D3GDR1R2DT (xvcls v) (xnals v)) * dr1 + (D3GDR2R2DT (xvcls v)
    (xnals v) (xcass v) (xnass v)) * dr2) + (D3GDR2DT2 * dt + D3GDR2DTDP * dp) + ((D3GDR2S0DT (xnals v) (xnass
    v)) * ds0)) v := by
  have nxvcls := pxvcls.ne'
  have nxnals := pxnals.ne'
  have nxcass := pxcass.ne'
  have nxnass := pxnass.ne'
  have nz := pz.ne'
  try simp only [S23, S24, D2GDR2DT, D3GDR2DT2, D3GDR2DTDP, D3GDR0R2DT, D3GDR1R2DT, D3GDR2R2DT, D3GDR2S0DT, zero_mul, mul_zero, add_zero, zero_add, sub_zero]
  refine HasDerivAt.congr_deriv (by hdo) ?_
  ring

lemma c_D2GDR2DP {t p r0 r1 r2 s0 : ℝ → ℝ} {v dt dp dr0 dr1 dr2 ds0 : ℝ} (ht : HasDerivAt t dt v) (hp : HasDerivAt p dp v)
    (hr0 : HasDerivAt r0 dr0 v) (hr1 : HasDerivAt r1 dr1 v) (hr2 : HasDerivAt r2 dr2 v) (hs0 : HasDerivAt s0 ds0
    v) :
    HasDerivAt (fun v => D2GDR2DP (r0 v) (s0 v))
    ((D3GDR0R2DP * dr0 + D3GDR1R2DP * dr1 + D3GDR2R2DP * dr2) + (D3GDR2DTDP * dt + D3GDR2DP2 * dp) + (D3GDR2S0DP
    * ds0)) v := by
  try simp only [VX, D2GDR2DP, D3GDR2DTDP, D3GDR2DP2, D3GDR0R2DP, D3GDR1R2DP, D3GDR2R2DP, D3GDR2S0DP, zero_mul, mul_zero, add_zero, zero_add, sub_zero]
  refine HasDerivAt.congr_deriv (by hdo) ?_
  ring

lemma c_D2GDS0S0 {t p r0 r1 r2 s0 xkls xnals xkss xnass : ℝ → ℝ} {v dt dp dr0 dr1 dr2 ds0 : ℝ} (ht : HasDerivAt t dt v) (hp :
    HasDerivAt p dp v) (hr0 : HasDerivAt r0 dr0 v) (hr1 : HasDerivAt r1 dr1 v) (hr2 : HasDerivAt r2 dr2 v) (hs0
    : HasDerivAt s0 ds0 v) (hxkls : HasDerivAt xkls (1 * dr0 + (3 / 4) * ds0) v) (pxkls : 0 < xkls v) (hxnals :
    HasDerivAt xnals ((-1) * dr0 + (-1) * dr1 + (-1) * dr2 + (-(3) / 4) * ds0) v) (pxnals : 0 < xnals v) (hxkss
    : HasDerivAt xkss (1 * dr0 + (-(1) / 4) * ds0) v) (pxkss : 0 < xkss v) (hxnass : HasDerivAt xnass ((-1) *
    dr0 + (-(1) / 3) * dr2 + (1 / 4) * ds0) v) (pxnass : 0 < xnass v) (pr1 : 0 < r1 v) :
    HasDerivAt (fun v => D2GDS0S0 (t v) (p v) (r0 v) (r1 v) (s0 v) (xkls v) (xnals v) (xkss v) (xnass v))
    (((D3GDR0S0S0 (t v) (r1 v) (xkls v) (xnals v) (xkss v) (xnass v)) * dr0 + (D3GDR1S0S0 (t v) (xnals v)) * dr1
    + (D3GDR2S0S0 (t v) (xnals v) (xnass v)) * dr2) + ((D3GDS0S0DT (xkls v) (xnals v) (xkss v) (xnass v)) * dt +
    D3GDS0S0DP * dp) + ((D3GDS0S0S0 (t v) (xkls v) (xnals v) (xkss v) (xnass v)) * ds0)) v := by
  have nxkls := pxkls.ne'
  have nxnals := pxnals.ne'
  have nxkss := pxkss.ne'
  have nxnass := pxnass.ne'
  have nr1 := pr1.ne'
  try simp only [VX, GX, WNAKLS, WNAKSS, DWKNALS, DWKNASS, DWVNASS, DWVNALS, DWVKLS, AWLS, AWSS, D2GDS0S0, D3GDS0S0DT, D3GDS0S0DP, D3GDR0S0S0, D3GDR1S0S0, D3GDR2S0S0, D3GDS0S0S0, zero_mul, mul_zero, add_zero, zero_add, sub_zero]
  refine HasDerivAt.congr_deriv (by hdo) ?_
  ring

lemma c_D2GDS0DT {t p r0 r1 r2 s0 xkls xnals xkss xnass : ℝ → ℝ} {v dt dp dr0 dr1 dr2 ds0 : ℝ} (ht : HasDerivAt t dt v) (hp :
    HasDerivAt p dp v) (hr0 : HasDerivAt r0 dr0 v) (hr1 : HasDerivAt r1 dr1 v) (hr2 : HasDerivAt r2 dr2 v) (hs0
    : HasDerivAt s0 ds0 v) (hxkls : HasDerivAt xkls (1 * dr0 + (3 / 4) * ds0) v) (pxkls : 0 < xkls v) (hxnals :
    HasDerivAt xnals ((-1) * dr0 + (-1) * dr1 + (-1) * dr2 + (-(3) / 4) * ds0) v) (pxnals : 0 < xnals v) (hxkss
    : HasDerivAt xkss (1 * dr0 + (-(1) / 4) * ds0) v) (pxkss : 0 < xkss v) (hxnass : HasDerivAt xnass ((-1) *
    dr0 + (-(1) / 3) * dr2 + (1 / 4) * ds0) v) (pxnass : 0 < xnass v) (pr1 : 0 < r1 v) :
    HasDerivAt (fun v => D2GDS0DT (r0 v) (r1 v) (r2 v) (s0 v) (xkls v) (xnals v) (xkss v) (xnass v))
    (((D3GDR0S0DT (xkls v) (xnals v) (xkss v) (xnass v)) * dr0 + (D3GDR1S0DT (xnals v)) * dr1 + (D3GDR2S0DT
    (xnals v) (xnass v)) * dr2) + (D3GDS0DT2 * dt + D3GDS0DTDP * dp) + ((D3GDS0S0DT (xkls v) (xnals v) (xkss v)
    (xnass v)) * ds0)) v := by
  have nxkls := pxkls.ne'
  have nxnals := pxnals.ne'
  have nxkss := pxkss.ne'
  have nxnass := pxnass.ne'
  have nr1 := pr1.ne'
  try simp only [S23, S24, D2GDS0DT, D3GDS0DT2, D3GDS0DTDP, D3GDR0S0DT, D3GDR1S0DT, D3GDR2S0DT, D3GDS0S0DT, zero_mul, mul_zero, add_zero, zero_add, sub_zero]
  refine HasDerivAt.congr_deriv (by hdo) ?_
  ring

lemma c_D2GDS0DP {t p r0 r1 r2 s0 : ℝ → ℝ} {v dt dp dr0 dr1 dr2 ds0 : ℝ} (ht : HasDerivAt t dt v) (hp : HasDerivAt p dp v)
    (hr0 : HasDerivAt r0 dr0 v) (hr1 : HasDerivAt r1 dr1 v) (hr2 : HasDerivAt r2 dr2 v) (hs0 : HasDerivAt s0 ds0
    v) (pr1 : 0 < r1 v) :
    HasDerivAt (fun v => D2GDS0DP (r0 v) (r1 v) (r2 v) (s0 v))
    ((D3GDR0S0DP * dr0 + D3GDR1S0DP * dr1 + D3GDR2S0DP * dr2) + (D3GDS0DTDP * dt + D3GDS0DP2 * dp) + (D3GDS0S0DP
    * ds0)) v := by
  have nr1 := pr1.ne'
  try simp only [VX, D2GDS0DP, D3GDS0DTDP, D3GDS0DP2, D3GDR0S0DP, D3GDR1S0DP, D3GDR2S0DP, D3GDS0S0DP, zero_mul, mul_zero, add_zero, zero_add, sub_zero]
  refine HasDerivAt.congr_deriv (by hdo) ?_
  ring

lemma c_D2GDT2 {t p r0 r1 r2 s0 : ℝ → ℝ} {v dt dp dr0 dr1 dr2 ds0 : ℝ} (ht : HasDerivAt t dt v) (hp : HasDerivAt p dp v)
    (hr0 : HasDerivAt r0 dr0 v) (hr1 : HasDerivAt r1 dr1 v) (hr2 : HasDerivAt r2 dr2 v) (hs0 : HasDerivAt s0 ds0
    v) :
    HasDerivAt (fun v => D2GDT2)
    ((D3GDR0DT2 * dr0 + D3GDR1DT2 * dr1 + D3GDR2DT2 * dr2) + (D3GDT3 * dt + D3GDT2DP * dp) + (D3GDS0DT2 * ds0)) v := by
  try simp only [D2GDT2, D3GDT3, D3GDT2DP, D3GDR0DT2, D3GDR1DT2, D3GDR2DT2, D3GDS0DT2, zero_mul, mul_zero, add_zero, zero_add, sub_zero]
  refine HasDerivAt.congr_deriv (by hdo) ?_
  ring

lemma c_D2GDTDP {t p r0 r1 r2 s0 : ℝ → ℝ} {v dt dp dr0 dr1 dr2 ds0 : ℝ} (ht : HasDerivAt t dt v) (hp : HasDerivAt p dp v)
    (hr0 : HasDerivAt r0 dr0 v) (hr1 : HasDerivAt r1 dr1 v) (hr2 : HasDerivAt r2 dr2 v) (hs0 : HasDerivAt s0 ds0
    v) :
    HasDerivAt (fun v => D2GDTDP)
    ((D3GDR0DTDP * dr0 + D3GDR1DTDP * dr1 + D3GDR2DTDP * dr2) + (D3GDT2DP * dt + D3GDTDP2 * dp) + (D3GDS0DTDP *
    ds0)) v := by
  try simp only [D2GDTDP, D3GDT2DP, D3GDTDP2, D3GDR0DTDP, D3GDR1DTDP, D3GDR2DTDP, D3GDS0DTDP, zero_mul, mul_zero, add_zero, zero_add, sub_zero]
  refine HasDerivAt.congr_deriv (by hdo) ?_
  ring

lemma c_D2GDP2 {t p r0 r1 r2 s0 : ℝ → ℝ} {v dt dp dr0 dr1 dr2 ds0 : ℝ} (ht : HasDerivAt t dt v) (hp : HasDerivAt p dp v)
    (hr0 : HasDerivAt r0 dr0 v) (hr1 : HasDerivAt r1 dr1 v) (hr2 : HasDerivAt r2 dr2 v) (hs0 : HasDerivAt s0 ds0
    v) :
    HasDerivAt (fun v => D2GDP2)
    ((D3GDR0DP2 * dr0 + D3GDR1DP2 * dr1 + D3GDR2DP2 * dr2) + (D3GDTDP2 * dt + D3GDP3 * dp) + (D3GDS0DP2 * ds0)) v := by
  try simp only [D2GDP2, D3GDTDP2, D3GDP3, D3GDR0DP2, D3GDR1DP2, D3GDR2DP2, D3GDS0DP2, zero_mul, mul_zero, add_zero, zero_add, sub_zero]
  refine HasDerivAt.congr_deriv (by hdo) ?_
  ring

attribute [local irreducible] S H V G GX WNAKLS WNAKSS G23 GEX DGDR0 DGDR1 G4 G24 DGDR2 DGDS0 DGDT DGDP
    D2GDR0R0 D2GDR0R1 D2GDR0R2 D2GDR0S0 D2GDR0DT D2GDR0DP D2GDR1R1 D2GDR1R2 D2GDR1S0 D2GDR1DT D2GDR1DP D2GDR2R2
    D2GDR2S0 D2GDR2DT D2GDR2DP D2GDS0S0 D2GDS0DT D2GDS0DP D3GDR0R0R0 D3GDR0R0R1 D3GDR0R0R2 D3GDR0R0S0 D3GDR0R0DT
    D3GDR0R1R1 D3GDR0R1R2 D3GDR0R1S0 D3GDR0R1DT D3GDR0R2R2 D3GDR0R2S0 D3GDR0R2DT D3GDR0S0S0 D3GDR0S0DT
    D3GDR1R1R1 D3GDR1R1R2 D3GDR1R1S0 D3GDR1R1DT D3GDR1R2R2 D3GDR1R2S0 D3GDR1R2DT D3GDR1S0S0 D3GDR1S0DT
    D3GDR2R2R2 D3GDR2R2S0 D3GDR2R2DT D3GDR2S0S0 D3GDR2S0DT D3GDS0S0S0 D3GDS0S0DT

lemma gr_g (y : Var 3 1 → ℝ) (hy : Dom y) :
    Gr (fun y => (tables (raw y) y).g) y ((tables (raw y) y).at1) := by
  refine Gr.of_lines ?_ fun u => ?_
  · have hp := pos y hy
    change DifferentiableAt ℝ (fun y => G (y (.inl iT)) (y (.inl iP)) (y (.inl (.inl 0))) (y (.inl (.inl 1))) (y (.inl (.inl 2))) (y (.inr 0)) (raw y 0) (raw y 1) (raw y 2) (raw y 3) (raw y 4) (raw y 5)) y
    have d0 := raw_diff 0 y
    have q0 := hp.1
    have n0 := q0.ne'
    have d1 := raw_diff 1 y
    have q1 := hp.2.1
    have n1 := q1.ne'
    have d2 := raw_diff 2 y
    have q2 := hp.2.2.1
    have n2 := q2.ne'
    have d3 := raw_diff 3 y
    have q3 := hp.2.2.2.1
    have n3 := q3.ne'
    have d4 := raw_diff 4 y
    have q4 := hp.2.2.2.2.1
    have n4 := q4.ne'
    have d5 := raw_diff 5 y
    have q5 := hp.2.2.2.2.2.1
    have n5 := q5.ne'
    have qx0 := hp.2.2.2.2.2.2.1
    have nx0 := qx0.ne'
    have qc0 := hp.2.2.2.2.2.2.2
    have nc0 := qc0.ne'
    try simp only [DWKNALS, DWKNASS, DWVNASS, DWVNALS, DWVKLS, AWLS, AWSS, AWVNA, AWVK, WCANA, WCAK, WPLAG, H, S23, S24, S, VX, V, G, zero_mul, mul_zero, add_zero, zero_add, sub_zero]
    ddo
  · have hp := pos y hy
    have h := c_G (hl y u ((.inl iT))) (hl y u ((.inl iP))) (hl y u ((.inl (.inl 0)))) (hl y u ((.inl (.inl
        1)))) (hl y u ((.inl (.inl 2)))) (hl y u ((.inr 0))) (raw_line0 y u) (by simpa only
        [zero_mul, add_zero] using hp.1) (raw_line1 y u) (by simpa only [zero_mul, add_zero] using
        hp.2.1) (raw_line2 y u) (by simpa only [zero_mul, add_zero] using hp.2.2.1) (raw_line3 y
        u) (by simpa only [zero_mul, add_zero] using hp.2.2.2.1) (raw_line4 y u) (by simpa only
        [zero_mul, add_zero] using hp.2.2.2.2.1) (raw_line5 y u) (by simpa only [zero_mul,
        add_zero] using hp.2.2.2.2.2.1) (by simpa only [zero_mul, add_zero] using
        hp.2.2.2.2.2.2.1) (by simpa only [zero_mul, add_zero] using hp.2.2.2.2.2.2.2)
    try simp only [zero_mul, add_zero] at h
    refine h.congr_deriv ?_
    rw [sum_var]; simp only [Fin.sum_univ_one, Fin.sum_univ_three]; rfl

lemma gr_dgdr_0 (y : Var 3 1 → ℝ) (hy : Dom y) :
    Gr (fun y => (tables (raw y) y).dgdr 0) y ((tables (raw y) y).at2 (.inl (.inl 0))) := by
  refine Gr.of_lines ?_ fun u => ?_
  · have hp := pos y hy
    change DifferentiableAt ℝ (fun y => DGDR0 (y (.inl iT)) (y (.inl iP)) (y (.inl (.inl 0))) (y (.inl (.inl 1))) (y (.inl (.inl 2))) (y (.inr 0)) (raw y 0) (raw y 2) (raw y 3) (raw y 5)) y
    have d0 := raw_diff 0 y
    have q0 := hp.1
    have n0 := q0.ne'
    have d2 := raw_diff 2 y
    have q2 := hp.2.2.1
    have n2 := q2.ne'
    have d3 := raw_diff 3 y
    have q3 := hp.2.2.2.1
    have n3 := q3.ne'
    have d5 := raw_diff 5 y
    have q5 := hp.2.2.2.2.2.1
    have n5 := q5.ne'
    have qx0 := hp.2.2.2.2.2.2.1
    have nx0 := qx0.ne'
    have qc0 := hp.2.2.2.2.2.2.2
    have nc0 := qc0.ne'
    try simp only [VX, GX, WNAKLS, WNAKSS, S23, G23, GEX, DWKNALS, DWKNASS, DWVNASS, DWVNALS, DWVKLS, AWLS, AWSS, AWVNA, AWVK, WCAK, WCANA, DGDR0, zero_mul, mul_zero, add_zero, zero_add, sub_zero]
    ddo
  · have hp := pos y hy
    have h := c_DGDR0 (hl y u ((.inl iT))) (hl y u ((.inl iP))) (hl y u ((.inl (.inl 0)))) (hl y u ((.inl (.inl
        1)))) (hl y u ((.inl (.inl 2)))) (hl y u ((.inr 0))) (raw_line0 y u) (by simpa only
        [zero_mul, add_zero] using hp.1) (raw_line2 y u) (by simpa only [zero_mul, add_zero] using
        hp.2.2.1) (raw_line3 y u) (by simpa only [zero_mul, add_zero] using hp.2.2.2.1) (raw_line5
        y u) (by simpa only [zero_mul, add_zero] using hp.2.2.2.2.2.1) (by simpa only [zero_mul,
        add_zero] using hp.2.2.2.2.2.2.2)
    try simp only [zero_mul, add_zero] at h
    refine h.congr_deriv ?_
    rw [sum_var]; simp only [Fin.sum_univ_one, Fin.sum_univ_three]; rfl

lemma gr_dgdr_1 (y : Var 3 1 → ℝ) (hy : Dom y) :
    Gr (fun y => (tables (raw y) y).dgdr 1) y ((tables (raw y) y).at2 (.inl (.inl 1))) := by
  refine Gr.of_lines ?_ fun u => ?_
  · have hp := pos y hy
    change DifferentiableAt ℝ (fun y => DGDR1 (y (.inl iT)) (y (.inl iP)) (y (.inl (.inl 0))) (y (.inl (.inl 1))) (y (.inl (.inl 2))) (y (.inr 0)) (raw y 1) (raw y 2)) y
    have d1 := raw_diff 1 y
    have q1 := hp.2.1
    have n1 := q1.ne'
    have d2 := raw_diff 2 y
    have q2 := hp.2.2.1
    have n2 := q2.ne'
    have qx0 := hp.2.2.2.2.2.2.1
    have nx0 := qx0.ne'
    have qc0 := hp.2.2.2.2.2.2.2
    have nc0 := qc0.ne'
    try simp only [S23, G23, GEX, VX, GX, WNAKLS, DWKNALS, DWVNASS, DWVNALS, DWVKLS, AWLS, AWVNA, AWVK, WPLAG, WCANA, DGDR1, zero_mul, mul_zero, add_zero, zero_add, sub_zero]
    ddo
  · have hp := pos y hy
    have h := c_DGDR1 (hl y u ((.inl iT))) (hl y u ((.inl iP))) (hl y u ((.inl (.inl 0)))) (hl y u ((.inl (.inl
        1)))) (hl y u ((.inl (.inl 2)))) (hl y u ((.inr 0))) (raw_line1 y u) (by simpa only
        [zero_mul, add_zero] using hp.2.1) (raw_line2 y u) (by simpa only [zero_mul, add_zero]
        using hp.2.2.1) (by simpa only [zero_mul, add_zero] using hp.2.2.2.2.2.2.2)
    try simp only [zero_mul, add_zero] at h
    refine h.congr_deriv ?_
    rw [sum_var]; simp only [Fin.sum_univ_one, Fin.sum_univ_three]; rfl

lemma gr_dgdr_2 (y : Var 3 1 → ℝ) (hy : Dom y) :
    Gr (fun y => (tables (raw y) y).dgdr 2) y ((tables (raw y) y).at2 (.inl (.inl 2))) := by
  refine Gr.of_lines ?_ fun u => ?_
  · have hp := pos y hy
    change DifferentiableAt ℝ (fun y => DGDR2 (y (.inl iT)) (y (.inl iP)) (y (.inl (.inl 0))) (y (.inl (.inl 1))) (y (.inl (.inl 2))) (y (.inr 0)) (raw y 1) (raw y 2) (raw y 4) (raw y 5)) y
    have d1 := raw_diff 1 y
    have q1 := hp.2.1
    have n1 := q1.ne'
    have d2 := raw_diff 2 y
    have q2 := hp.2.2.1
    have n2 := q2.ne'
    have d4 := raw_diff 4 y
    have q4 := hp.2.2.2.2.1
    have n4 := q4.ne'
    have d5 := raw_diff 5 y
    have q5 := hp.2.2.2.2.2.1
    have n5 := q5.ne'
    have qx0 := hp.2.2.2.2.2.2.1
    have nx0 := qx0.ne'
    have qc0 := hp.2.2.2.2.2.2.2
    have nc0 := qc0.ne'
    try simp only [G4, WCANA, S23, G23, GEX, VX, GX, WNAKLS, WNAKSS, WCAK, WPLAG, S24, G24, DGDR2, zero_mul, mul_zero, add_zero, zero_add, sub_zero]
    ddo
  · have hp := pos y hy
    have h := c_DGDR2 (hl y u ((.inl iT))) (hl y u ((.inl iP))) (hl y u ((.inl (.inl 0)))) (hl y u ((.inl (.inl
        1)))) (hl y u ((.inl (.inl 2)))) (hl y u ((.inr 0))) (raw_line1 y u) (by simpa only
        [zero_mul, add_zero] using hp.2.1) (raw_line2 y u) (by simpa only [zero_mul, add_zero]
        using hp.2.2.1) (raw_line4 y u) (by simpa only [zero_mul, add_zero] using hp.2.2.2.2.1)
        (raw_line5 y u) (by simpa only [zero_mul, add_zero] using hp.2.2.2.2.2.1) (by simpa only
        [zero_mul, add_zero] using hp.2.2.2.2.2.2.1) (by simpa only [zero_mul, add_zero] using
        hp.2.2.2.2.2.2.2)
    try simp only [zero_mul, add_zero] at h
    refine h.congr_deriv ?_
    rw [sum_var]; simp only [Fin.sum_univ_one, Fin.sum_univ_three]; rfl

lemma gr_dgds_0 (y : Var 3 1 → ℝ) (hy : Dom y) :
    Gr (fun y => (tables (raw y) y).dgds 0) y ((tables (raw y) y).at2 (.inr 0)) := by
  refine Gr.of_lines ?_ fun u => ?_
  · have hp := pos y hy
    change DifferentiableAt ℝ (fun y => DGDS0 (y (.inl iT)) (y (.inl iP)) (y (.inl (.inl 0))) (y (.inl (.inl 1))) (y (.inl (.inl 2))) (y (.inr 0)) (raw y 0) (raw y 2) (raw y 3) (raw y 5)) y
    have d0 := raw_diff 0 y
    have q0 := hp.1
    have n0 := q0.ne'
    have d2 := raw_diff 2 y
    have q2 := hp.2.2.1
    have n2 := q2.ne'
    have d3 := raw_diff 3 y
    have q3 := hp.2.2.2.1
    have n3 := q3.ne'
    have d5 := raw_diff 5 y
    have q5 := hp.2.2.2.2.2.1
    have n5 := q5.ne'
    have qx0 := hp.2.2.2.2.2.2.1
    have nx0 := qx0.ne'
    have qc0 := hp.2.2.2.2.2.2.2
    have nc0 := qc0.ne'
    try simp only [GEX, VX, GX, WNAKLS, WNAKSS, S23, G23, DWKNALS, DWKNASS, DWVNASS, DWVNALS, DWVKLS, AWLS, AWSS, AWVNA, AWVK, WCAK, WCANA, S24, G24, DGDS0, zero_mul, mul_zero, add_zero, zero_add, sub_zero]
    ddo
  · have hp := pos y hy
    have h := c_DGDS0 (hl y u ((.inl iT))) (hl y u ((.inl iP))) (hl y u ((.inl (.inl 0)))) (hl y u ((.inl (.inl
        1)))) (hl y u ((.inl (.inl 2)))) (hl y u ((.inr 0))) (raw_line0 y u) (by simpa only
        [zero_mul, add_zero] using hp.1) (raw_line2 y u) (by simpa only [zero_mul, add_zero] using
        hp.2.2.1) (raw_line3 y u) (by simpa only [zero_mul, add_zero] using hp.2.2.2.1) (raw_line5
        y u) (by simpa only [zero_mul, add_zero] using hp.2.2.2.2.2.1) (by simpa only [zero_mul,
        add_zero] using hp.2.2.2.2.2.2.2)
    try simp only [zero_mul, add_zero] at h
    refine h.congr_deriv ?_
    rw [sum_var]; simp only [Fin.sum_univ_one, Fin.sum_univ_three]; rfl

lemma gr_dgdt (y : Var 3 1 → ℝ) (hy : Dom y) :
    Gr (fun y => (tables (raw y) y).dgdt) y ((tables (raw y) y).at2 (.inl iT)) := by
  refine Gr.of_lines ?_ fun u => ?_
  · have hp := pos y hy
    change DifferentiableAt ℝ (fun y => DGDT (y (.inl (.inl 0))) (y (.inl (.inl 1))) (y (.inl (.inl 2))) (y (.inr 0)) (raw y 0) (raw y 1) (raw y 2) (raw y 3) (raw y 4) (raw y 5)) y
    have d0 := raw_diff 0 y
    have q0 := hp.1
    have n0 := q0.ne'
    have d1 := raw_diff 1 y
    have q1 := hp.2.1
    have n1 := q1.ne'
    have d2 := raw_diff 2 y
    have q2 := hp.2.2.1
    have n2 := q2.ne'
    have d3 := raw_diff 3 y
    have q3 := hp.2.2.2.1
    have n3 := q3.ne'
    have d4 := raw_diff 4 y
    have q4 := hp.2.2.2.2.1
    have n4 := q4.ne'
    have d5 := raw_diff 5 y
    have q5 := hp.2.2.2.2.2.1
    have n5 := q5.ne'
    have qx0 := hp.2.2.2.2.2.2.1
    have nx0 := qx0.ne'
    have qc0 := hp.2.2.2.2.2.2.2
    have nc0 := qc0.ne'
    try simp only [S23, S24, S, DGDT, zero_mul, mul_zero, add_zero, zero_add, sub_zero]
    ddo
  · have hp := pos y hy
    have h := c_DGDT (hl y u ((.inl iT))) (hl y u ((.inl iP))) (hl y u ((.inl (.inl 0)))) (hl y u ((.inl (.inl
        1)))) (hl y u ((.inl (.inl 2)))) (hl y u ((.inr 0))) (raw_line0 y u) (by simpa only
        [zero_mul, add_zero] using hp.1) (raw_line1 y u) (by simpa only [zero_mul, add_zero] using
        hp.2.1) (raw_line2 y u) (by simpa only [zero_mul, add_zero] using hp.2.2.1) (raw_line3 y
        u) (by simpa only [zero_mul, add_zero] using hp.2.2.2.1) (raw_line4 y u) (by simpa only
        [zero_mul, add_zero] using hp.2.2.2.2.1) (raw_line5 y u) (by simpa only [zero_mul,
        add_zero] using hp.2.2.2.2.2.1) (by simpa only [zero_mul, add_zero] using
        hp.2.2.2.2.2.2.1) (by simpa only [zero_mul, add_zero] using hp.2.2.2.2.2.2.2)
    try simp only [zero_mul, add_zero] at h
    refine h.congr_deriv ?_
    rw [sum_var]; simp only [Fin.sum_univ_one, Fin.sum_univ_three]; rfl

lemma gr_dgdp (y : Var 3 1 → ℝ) (hy : Dom y) :
    Gr (fun y => (tables (raw y) y).dgdp) y ((tables (raw y) y).at2 (.inl iP)) := by
  refine Gr.of_lines ?_ fun u => ?_
  · have hp := pos y hy
    change DifferentiableAt ℝ (fun y => DGDP (y (.inl (.inl 0))) (y (.inl (.inl 1))) (y (.inl (.inl 2))) (y (.inr 0))) y
    have qx0 := hp.2.2.2.2.2.2.1
    have nx0 := qx0.ne'
    have qc0 := hp.2.2.2.2.2.2.2
    have nc0 := qc0.ne'
    try simp only [VX, V, DGDP, zero_mul, mul_zero, add_zero, zero_add, sub_zero]
    ddo
  · have hp := pos y hy
    have h := c_DGDP (hl y u ((.inl iT))) (hl y u ((.inl iP))) (hl y u ((.inl (.inl 0)))) (hl y u ((.inl (.inl
        1)))) (hl y u ((.inl (.inl 2)))) (hl y u ((.inr 0))) (by simpa only [zero_mul, add_zero]
        using hp.2.2.2.2.2.2.2)
    try simp only [zero_mul, add_zero] at h
    refine h.congr_deriv ?_
    rw [sum_var]; simp only [Fin.sum_univ_one, Fin.sum_univ_three]; rfl

lemma gr_d2gdr2_0_0 (y : Var 3 1 → ℝ) (hy : Dom y) :
    Gr (fun y => (tables (raw y) y).d2gdr2 0 0) y ((tables (raw y) y).at3 (.inl (.inl 0)) (.inl (.inl 0))) := by
  refine Gr.of_lines ?_ fun u => ?_
  · have hp := pos y hy
    change DifferentiableAt ℝ (fun y => D2GDR0R0 (y (.inl iT)) (y (.inl iP)) (y (.inl (.inl 0))) (y (.inl (.inl 1))) (y (.inr 0)) (raw y 0) (raw y 2) (raw y 3) (raw y 5)) y
    have d0 := raw_diff 0 y
    have q0 := hp.1
    have n0 := q0.ne'
    have d2 := raw_diff 2 y
    have q2 := hp.2.2.1
    have n2 := q2.ne'
    have d3 := raw_diff 3 y
    have q3 := hp.2.2.2.1
    have n3 := q3.ne'
    have d5 := raw_diff 5 y
    have q5 := hp.2.2.2.2.2.1
    have n5 := q5.ne'
    have qx0 := hp.2.2.2.2.2.2.1
    have nx0 := qx0.ne'
    have qc0 := hp.2.2.2.2.2.2.2
    have nc0 := qc0.ne'
    try simp only [VX, GX, WNAKLS, WNAKSS, DWKNALS, DWKNASS, DWVNASS, DWVNALS, DWVKLS, AWLS, AWSS, D2GDR0R0, zero_mul, mul_zero, add_zero, zero_add, sub_zero]
    ddo
  · have hp := pos y hy
    have h := c_D2GDR0R0 (hl y u ((.inl iT))) (hl y u ((.inl iP))) (hl y u ((.inl (.inl 0)))) (hl y u ((.inl (.inl
        1)))) (hl y u ((.inl (.inl 2)))) (hl y u ((.inr 0))) (raw_line0 y u) (by simpa only
        [zero_mul, add_zero] using hp.1) (raw_line2 y u) (by simpa only [zero_mul, add_zero] using
        hp.2.2.1) (raw_line3 y u) (by simpa only [zero_mul, add_zero] using hp.2.2.2.1) (raw_line5
        y u) (by simpa only [zero_mul, add_zero] using hp.2.2.2.2.2.1) (by simpa only [zero_mul,
        add_zero] using hp.2.2.2.2.2.2.2)
    try simp only [zero_mul, add_zero] at h
    refine h.congr_deriv ?_
    rw [sum_var]; simp only [Fin.sum_univ_one, Fin.sum_univ_three]; rfl

lemma gr_d2gdr2_0_1 (y : Var 3 1 → ℝ) (hy : Dom y) :
    Gr (fun y => (tables (raw y) y).d2gdr2 0 1) y ((tables (raw y) y).at3 (.inl (.inl 0)) (.inl (.inl 1))) := by
  refine Gr.of_lines ?_ fun u => ?_
  · have hp := pos y hy
    change DifferentiableAt ℝ (fun y => D2GDR0R1 (y (.inl iT)) (y (.inl iP)) (y (.inl (.inl 0))) (y (.inl (.inl 1))) (y (.inr 0)) (raw y 2)) y
    have d2 := raw_diff 2 y
    have q2 := hp.2.2.1
    have n2 := q2.ne'
    have qx0 := hp.2.2.2.2.2.2.1
    have nx0 := qx0.ne'
    have qc0 := hp.2.2.2.2.2.2.2
    have nc0 := qc0.ne'
    try simp only [S23, G23, GEX, VX, GX, WNAKLS, DWKNALS, DWVNASS, DWVNALS, DWVKLS, AWLS, AWVNA, AWVK, D2GDR0R1, zero_mul, mul_zero, add_zero, zero_add, sub_zero]
    ddo
  · have hp := pos y hy
    have h := c_D2GDR0R1 (hl y u ((.inl iT))) (hl y u ((.inl iP))) (hl y u ((.inl (.inl 0)))) (hl y u ((.inl (.inl
        1)))) (hl y u ((.inl (.inl 2)))) (hl y u ((.inr 0))) (raw_line2 y u) (by simpa only
        [zero_mul, add_zero] using hp.2.2.1) (by simpa only [zero_mul, add_zero] using
        hp.2.2.2.2.2.2.2)
    try simp only [zero_mul, add_zero] at h
    refine h.congr_deriv ?_
    rw [sum_var]; simp only [Fin.sum_univ_one, Fin.sum_univ_three]; rfl

lemma gr_d2gdr2_0_2 (y : Var 3 1 → ℝ) (hy : Dom y) :
    Gr (fun y => (tables (raw y) y).d2gdr2 0 2) y ((tables (raw y) y).at3 (.inl (.inl 0)) (.inl (.inl 2))) := by
  refine Gr.of_lines ?_ fun u => ?_
  · have hp := pos y hy
    change DifferentiableAt ℝ (fun y => D2GDR0R2 (y (.inl iT)) (y (.inl iP)) (raw y 2) (raw y 5)) y
    have d2 := raw_diff 2 y
    have q2 := hp.2.2.1
    have n2 := q2.ne'
    have d5 := raw_diff 5 y
    have q5 := hp.2.2.2.2.2.1
    have n5 := q5.ne'
    have qx0 := hp.2.2.2.2.2.2.1
    have nx0 := qx0.ne'
    have qc0 := hp.2.2.2.2.2.2.2
    have nc0 := qc0.ne'
    try simp only [S23, G23, GEX, VX, GX, WNAKLS, WNAKSS, WCAK, WCANA, D2GDR0R2, zero_mul, mul_zero, add_zero, zero_add, sub_zero]
    ddo
  · have hp := pos y hy
    have h := c_D2GDR0R2 (hl y u ((.inl iT))) (hl y u ((.inl iP))) (hl y u ((.inl (.inl 0)))) (hl y u ((.inl (.inl
        1)))) (hl y u ((.inl (.inl 2)))) (hl y u ((.inr 0))) (raw_line2 y u) (by simpa only
        [zero_mul, add_zero] using hp.2.2.1) (raw_line5 y u) (by simpa only [zero_mul, add_zero]
        using hp.2.2.2.2.2.1)
    try simp only [zero_mul, add_zero] at h
    refine h.congr_deriv ?_
    rw [sum_var]; simp only [Fin.sum_univ_one, Fin.sum_univ_three]; rfl

lemma gr_d2gdrds_0_0 (y : Var 3 1 → ℝ) (hy : Dom y) :
    Gr (fun y => (tables (raw y) y).d2gdrds 0 0) y ((tables (raw y) y).at3 (.inl (.inl 0)) (.inr 0)) := by
  refine Gr.of_lines ?_ fun u => ?_
  · have hp := pos y hy
    change DifferentiableAt ℝ (fun y => D2GDR0S0 (y (.inl iT)) (y (.inl iP)) (y (.inl (.inl 0))) (y (.inl (.inl 1))) (y (.inr 0)) (raw y 0) (raw y 2) (raw y 3) (raw y 5)) y
    have d0 := raw_diff 0 y
    have q0 := hp.1
    have n0 := q0.ne'
    have d2 := raw_diff 2 y
    have q2 := hp.2.2.1
    have n2 := q2.ne'
    have d3 := raw_diff 3 y
    have q3 := hp.2.2.2.1
    have n3 := q3.ne'
    have d5 := raw_diff 5 y
    have q5 := hp.2.2.2.2.2.1
    have n5 := q5.ne'
    have qx0 := hp.2.2.2.2.2.2.1
    have nx0 := qx0.ne'
    have qc0 := hp.2.2.2.2.2.2.2
    have nc0 := qc0.ne'
    try simp only [VX, GX, WNAKLS, WNAKSS, DWKNALS, DWKNASS, AWLS, AWSS, D2GDR0S0, zero_mul, mul_zero, add_zero, zero_add, sub_zero]
    ddo
  · have hp := pos y hy
    have h := c_D2GDR0S0 (hl y u ((.inl iT))) (hl y u ((.inl iP))) (hl y u ((.inl (.inl 0)))) (hl y u ((.inl (.inl
        1)))) (hl y u ((.inl (.inl 2)))) (hl y u ((.inr 0))) (raw_line0 y u) (by simpa only
        [zero_mul, add_zero] using hp.1) (raw_line2 y u) (by simpa only [zero_mul, add_zero] using
        hp.2.2.1) (raw_line3 y u) (by simpa only [zero_mul, add_zero] using hp.2.2.2.1) (raw_line5
        y u) (by simpa only [zero_mul, add_zero] using hp.2.2.2.2.2.1) (by simpa only [zero_mul,
        add_zero] using hp.2.2.2.2.2.2.2)
    try simp only [zero_mul, add_zero] at h
    refine h.congr_deriv ?_
    rw [sum_var]; simp only [Fin.sum_univ_one, Fin.sum_univ_three]; rfl

lemma gr_d2gdrdt_0 (y : Var 3 1 → ℝ) (hy : Dom y) :
    Gr (fun y => (tables (raw y) y).d2gdrdt 0) y ((tables (raw y) y).at3 (.inl (.inl 0)) (.inl iT)) := by
  refine Gr.of_lines ?_ fun u => ?_
  · have hp := pos y hy
    change DifferentiableAt ℝ (fun y => D2GDR0DT (y (.inl (.inl 0))) (y (.inl (.inl 1))) (y (.inl (.inl 2))) (y (.inr 0)) (raw y 0) (raw y 2) (raw y 3) (raw y 5)) y
    have d0 := raw_diff 0 y
    have q0 := hp.1
    have n0 := q0.ne'
    have d2 := raw_diff 2 y
    have q2 := hp.2.2.1
    have n2 := q2.ne'
    have d3 := raw_diff 3 y
    have q3 := hp.2.2.2.1
    have n3 := q3.ne'
    have d5 := raw_diff 5 y
    have q5 := hp.2.2.2.2.2.1
    have n5 := q5.ne'
    have qx0 := hp.2.2.2.2.2.2.1
    have nx0 := qx0.ne'
    have qc0 := hp.2.2.2.2.2.2.2
    have nc0 := qc0.ne'
    try simp only [S23, D2GDR0DT, zero_mul, mul_zero, add_zero, zero_add, sub_zero]
    ddo
  · have hp := pos y hy
    have h := c_D2GDR0DT (hl y u ((.inl iT))) (hl y u ((.inl iP))) (hl y u ((.inl (.inl 0)))) (hl y u ((.inl (.inl
        1)))) (hl y u ((.inl (.inl 2)))) (hl y u ((.inr 0))) (raw_line0 y u) (by simpa only
        [zero_mul, add_zero] using hp.1) (raw_line2 y u) (by simpa only [zero_mul, add_zero] using
        hp.2.2.1) (raw_line3 y u) (by simpa only [zero_mul, add_zero] using hp.2.2.2.1) (raw_line5
        y u) (by simpa only [zero_mul, add_zero] using hp.2.2.2.2.2.1) (by simpa only [zero_mul,
        add_zero] using hp.2.2.2.2.2.2.2)
    try simp only [zero_mul, add_zero] at h
    refine h.congr_deriv ?_
    rw [sum_var]; simp only [Fin.sum_univ_one, Fin.sum_univ_three]; rfl

lemma gr_d2gdrdp_0 (y : Var 3 1 → ℝ) (hy : Dom y) :
    Gr (fun y => (tables (raw y) y).d2gdrdp 0) y ((tables (raw y) y).at3 (.inl (.inl 0)) (.inl iP)) := by
  refine Gr.of_lines ?_ fun u => ?_
  · have hp := pos y hy
    change DifferentiableAt ℝ (fun y => D2GDR0DP (y (.inl (.inl 0))) (y (.inl (.inl 1))) (y (.inl (.inl 2))) (y (.inr 0))) y
    have qx0 := hp.2.2.2.2.2.2.1
    have nx0 := qx0.ne'
    have qc0 := hp.2.2.2.2.2.2.2
    have nc0 := qc0.ne'
    try simp only [VX, D2GDR0DP, zero_mul, mul_zero, add_zero, zero_add, sub_zero]
    ddo
  · have hp := pos y hy
    have h := c_D2GDR0DP (hl y u ((.inl iT))) (hl y u ((.inl iP))) (hl y u ((.inl (.inl 0)))) (hl y u ((.inl (.inl
        1)))) (hl y u ((.inl (.inl 2)))) (hl y u ((.inr 0))) (by simpa only [zero_mul, add_zero]
        using hp.2.2.2.2.2.2.2)
    try simp only [zero_mul, add_zero] at h
    refine h.congr_deriv ?_
    rw [sum_var]; simp only [Fin.sum_univ_one, Fin.sum_univ_three]; rfl

lemma gr_d2gdr2_1_1 (y : Var 3 1 → ℝ) (hy : Dom y) :
    Gr (fun y => (tables (raw y) y).d2gdr2 1 1) y ((tables (raw y) y).at3 (.inl (.inl 1)) (.inl (.inl 1))) := by
  refine Gr.of_lines ?_ fun u => ?_
  · have hp := pos y hy
    change DifferentiableAt ℝ (fun y => D2GDR1R1 (y (.inl iT)) (y (.inl (.inl 0))) (y (.inl (.inl 1))) (y (.inr 0)) (raw y 1) (raw y 2)) y
    have d1 := raw_diff 1 y
    have q1 := hp.2.1
    have n1 := q1.ne'
    have d2 := raw_diff 2 y
    have q2 := hp.2.2.1
    have n2 := q2.ne'
    have qx0 := hp.2.2.2.2.2.2.1
    have nx0 := qx0.ne'
    have qc0 := hp.2.2.2.2.2.2.2
    have nc0 := qc0.ne'
    try simp only [DWKNALS, DWVNASS, DWVNALS, DWVKLS, AWLS, AWVNA, AWVK, D2GDR1R1, zero_mul, mul_zero, add_zero, zero_add, sub_zero]
    ddo
  · have hp := pos y hy
    have h := c_D2GDR1R1 (hl y u ((.inl iT))) (hl y u ((.inl iP))) (hl y u ((.inl (.inl 0)))) (hl y u ((.inl (.inl
        1)))) (hl y u ((.inl (.inl 2)))) (hl y u ((.inr 0))) (raw_line1 y u) (by simpa only
        [zero_mul, add_zero] using hp.2.1) (raw_line2 y u) (by simpa only [zero_mul, add_zero]
        using hp.2.2.1) (by simpa only [zero_mul, add_zero] using hp.2.2.2.2.2.2.2)
    try simp only [zero_mul, add_zero] at h
    refine h.congr_deriv ?_
    rw [sum_var]; simp only [Fin.sum_univ_one, Fin.sum_univ_three]; rfl

lemma gr_d2gdr2_1_2 (y : Var 3 1 → ℝ) (hy : Dom y) :
    Gr (fun y => (tables (raw y) y).d2gdr2 1 2) y ((tables (raw y) y).at3 (.inl (.inl 1)) (.inl (.inl 2))) := by
  refine Gr.of_lines ?_ fun u => ?_
  · have hp := pos y hy
    change DifferentiableAt ℝ (fun y => D2GDR1R2 (y (.inl iT)) (raw y 1) (raw y 2)) y
    have d1 := raw_diff 1 y
    have q1 := hp.2.1
    have n1 := q1.ne'
    have d2 := raw_diff 2 y
    have q2 := hp.2.2.1
    have n2 := q2.ne'
    have qx0 := hp.2.2.2.2.2.2.1
    have nx0 := qx0.ne'
    have qc0 := hp.2.2.2.2.2.2.2
    have nc0 := qc0.ne'
    try simp only [WPLAG, WCANA, D2GDR1R2, zero_mul, mul_zero, add_zero, zero_add, sub_zero]
    ddo
  · have hp := pos y hy
    have h := c_D2GDR1R2 (hl y u ((.inl iT))) (hl y u ((.inl iP))) (hl y u ((.inl (.inl 0)))) (hl y u ((.inl (.inl
        1)))) (hl y u ((.inl (.inl 2)))) (hl y u ((.inr 0))) (raw_line1 y u) (by simpa only
        [zero_mul, add_zero] using hp.2.1) (raw_line2 y u) (by simpa only [zero_mul, add_zero]
        using hp.2.2.1)
    try simp only [zero_mul, add_zero] at h
    refine h.congr_deriv ?_
    rw [sum_var]; simp only [Fin.sum_univ_one, Fin.sum_univ_three]; rfl

lemma gr_d2gdrds_1_0 (y : Var 3 1 → ℝ) (hy : Dom y) :
    Gr (fun y => (tables (raw y) y).d2gdrds 1 0) y ((tables (raw y) y).at3 (.inl (.inl 1)) (.inr 0)) := by
  refine Gr.of_lines ?_ fun u => ?_
  · have hp := pos y hy
    change DifferentiableAt ℝ (fun y => D2GDR1S0 (y (.inl iT)) (y (.inl iP)) (y (.inl (.inl 1))) (y (.inr 0)) (raw y 2)) y
    have d2 := raw_diff 2 y
    have q2 := hp.2.2.1
    have n2 := q2.ne'
    have qx0 := hp.2.2.2.2.2.2.1
    have nx0 := qx0.ne'
    have qc0 := hp.2.2.2.2.2.2.2
    have nc0 := qc0.ne'
    try simp only [VX, GX, GEX, S23, G23, WNAKLS, DWKNALS, DWVNASS, DWVNALS, DWVKLS, AWLS, AWVNA, AWVK, D2GDR1S0, zero_mul, mul_zero, add_zero, zero_add, sub_zero]
    ddo
  · have hp := pos y hy
    have h := c_D2GDR1S0 (hl y u ((.inl iT))) (hl y u ((.inl iP))) (hl y u ((.inl (.inl 0)))) (hl y u ((.inl (.inl
        1)))) (hl y u ((.inl (.inl 2)))) (hl y u ((.inr 0))) (raw_line2 y u) (by simpa only
        [zero_mul, add_zero] using hp.2.2.1) (by simpa only [zero_mul, add_zero] using
        hp.2.2.2.2.2.2.2)
    try simp only [zero_mul, add_zero] at h
    refine h.congr_deriv ?_
    rw [sum_var]; simp only [Fin.sum_univ_one, Fin.sum_univ_three]; rfl

lemma gr_d2gdrdt_1 (y : Var 3 1 → ℝ) (hy : Dom y) :
    Gr (fun y => (tables (raw y) y).d2gdrdt 1) y ((tables (raw y) y).at3 (.inl (.inl 1)) (.inl iT)) := by
  refine Gr.of_lines ?_ fun u => ?_
  · have hp := pos y hy
    change DifferentiableAt ℝ (fun y => D2GDR1DT (y (.inl (.inl 0))) (y (.inr 0)) (raw y 1) (raw y 2)) y
    have d1 := raw_diff 1 y
    have q1 := hp.2.1
    have n1 := q1.ne'
    have d2 := raw_diff 2 y
    have q2 := hp.2.2.1
    have n2 := q2.ne'
    have qx0 := hp.2.2.2.2.2.2.1
    have nx0 := qx0.ne'
    have qc0 := hp.2.2.2.2.2.2.2
    have nc0 := qc0.ne'
    try simp only [S23, D2GDR1DT, zero_mul, mul_zero, add_zero, zero_add, sub_zero]
    ddo
  · have hp := pos y hy
    have h := c_D2GDR1DT (hl y u ((.inl iT))) (hl y u ((.inl iP))) (hl y u ((.inl (.inl 0)))) (hl y u ((.inl (.inl
        1)))) (hl y u ((.inl (.inl 2)))) (hl y u ((.inr 0))) (raw_line1 y u) (by simpa only
        [zero_mul, add_zero] using hp.2.1) (raw_line2 y u) (by simpa only [zero_mul, add_zero]
        using hp.2.2.1)
    try simp only [zero_mul, add_zero] at h
    refine h.congr_deriv ?_
    rw [sum_var]; simp only [Fin.sum_univ_one, Fin.sum_univ_three]; rfl

lemma gr_d2gdrdp_1 (y : Var 3 1 → ℝ) (hy : Dom y) :
    Gr (fun y => (tables (raw y) y).d2gdrdp 1) y ((tables (raw y) y).at3 (.inl (.inl 1)) (.inl iP)) := by
  refine Gr.of_lines ?_ fun u => ?_
  · have hp := pos y hy
    change DifferentiableAt ℝ (fun y => D2GDR1DP (y (.inl (.inl 0))) (y (.inr 0))) y
    have qx0 := hp.2.2.2.2.2.2.1
    have nx0 := qx0.ne'
    have qc0 := hp.2.2.2.2.2.2.2
    have nc0 := qc0.ne'
    try simp only [VX, D2GDR1DP, zero_mul, mul_zero, add_zero, zero_add, sub_zero]
    ddo
  · have hp := pos y hy
    have h := c_D2GDR1DP (hl y u ((.inl iT))) (hl y u ((.inl iP))) (hl y u ((.inl (.inl 0)))) (hl y u ((.inl (.inl
        1)))) (hl y u ((.inl (.inl 2)))) (hl y u ((.inr 0)))
    try simp only [zero_mul, add_zero] at h
    refine h.congr_deriv ?_
    rw [sum_var]; simp only [Fin.sum_univ_one, Fin.sum_univ_three]; rfl

lemma gr_d2gdr2_2_2 (y : Var 3 1 → ℝ) (hy : Dom y) :
    Gr (fun y => (tables (raw y) y).d2gdr2 2 2) y ((tables (raw y) y).at3 (.inl (.inl 2)) (.inl (.inl 2))) := by
  refine Gr.of_lines ?_ fun u => ?_
  · have hp := pos y hy
    change DifferentiableAt ℝ (fun y => D2GDR2R2 (y (.inl iT)) (raw y 1) (raw y 2) (raw y 4) (raw y 5)) y
    have d1 := raw_diff 1 y
    have q1 := hp.2.1
    have n1 := q1.ne'
    have d2 := raw_diff 2 y
    have q2 := hp.2.2.1
    have n2 := q2.ne'
    have d4 := raw_diff 4 y
    have q4 := hp.2.2.2.2.1
    have n4 := q4.ne'
    have d5 := raw_diff 5 y
    have q5 := hp.2.2.2.2.2.1
    have n5 := q5.ne'
    have qx0 := hp.2.2.2.2.2.2.1
    have nx0 := qx0.ne'
    have qc0 := hp.2.2.2.2.2.2.2
    have nc0 := qc0.ne'
    try simp only [WCANA, D2GDR2R2, zero_mul, mul_zero, add_zero, zero_add, sub_zero]
    ddo
  · have hp := pos y hy
    have h := c_D2GDR2R2 (hl y u ((.inl iT))) (hl y u ((.inl iP))) (hl y u ((.inl (.inl 0)))) (hl y u ((.inl (.inl
        1)))) (hl y u ((.inl (.inl 2)))) (hl y u ((.inr 0))) (raw_line1 y u) (by simpa only
        [zero_mul, add_zero] using hp.2.1) (raw_line2 y u) (by simpa only [zero_mul, add_zero]
        using hp.2.2.1) (raw_line4 y u) (by simpa only [zero_mul, add_zero] using hp.2.2.2.2.1)
        (raw_line5 y u) (by simpa only [zero_mul, add_zero] using hp.2.2.2.2.2.1) (by simpa only
        [zero_mul, add_zero] using hp.2.2.2.2.2.2.1)
    try simp only [zero_mul, add_zero] at h
    refine h.congr_deriv ?_
    rw [sum_var]; simp only [Fin.sum_univ_one, Fin.sum_univ_three]; rfl

lemma gr_d2gdrds_2_0 (y : Var 3 1 → ℝ) (hy : Dom y) :
    Gr (fun y => (tables (raw y) y).d2gdrds 2 0) y ((tables (raw y) y).at3 (.inl (.inl 2)) (.inr 0)) := by
  refine Gr.of_lines ?_ fun u => ?_
  · have hp := pos y hy
    change DifferentiableAt ℝ (fun y => D2GDR2S0 (y (.inl iT)) (y (.inl iP)) (raw y 2) (raw y 5)) y
    have d2 := raw_diff 2 y
    have q2 := hp.2.2.1
    have n2 := q2.ne'
    have d5 := raw_diff 5 y
    have q5 := hp.2.2.2.2.2.1
    have n5 := q5.ne'
    have qx0 := hp.2.2.2.2.2.2.1
    have nx0 := qx0.ne'
    have qc0 := hp.2.2.2.2.2.2.2
    have nc0 := qc0.ne'
    try simp only [WCAK, WCANA, WNAKLS, WNAKSS, GEX, VX, GX, S23, G23, S24, G24, D2GDR2S0, zero_mul, mul_zero, add_zero, zero_add, sub_zero]
    ddo
  · have hp := pos y hy
    have h := c_D2GDR2S0 (hl y u ((.inl iT))) (hl y u ((.inl iP))) (hl y u ((.inl (.inl 0)))) (hl y u ((.inl (.inl
        1)))) (hl y u ((.inl (.inl 2)))) (hl y u ((.inr 0))) (raw_line2 y u) (by simpa only
        [zero_mul, add_zero] using hp.2.2.1) (raw_line5 y u) (by simpa only [zero_mul, add_zero]
        using hp.2.2.2.2.2.1)
    try simp only [zero_mul, add_zero] at h
    refine h.congr_deriv ?_
    rw [sum_var]; simp only [Fin.sum_univ_one, Fin.sum_univ_three]; rfl

lemma gr_d2gdrdt_2 (y : Var 3 1 → ℝ) (hy : Dom y) :
    Gr (fun y => (tables (raw y) y).d2gdrdt 2) y ((tables (raw y) y).at3 (.inl (.inl 2)) (.inl iT)) := by
  refine Gr.of_lines ?_ fun u => ?_
  · have hp := pos y hy
    change DifferentiableAt ℝ (fun y => D2GDR2DT (y (.inl (.inl 0))) (y (.inr 0)) (raw y 1) (raw y 2) (raw y 4) (raw y 5)) y
    have d1 := raw_diff 1 y
    have q1 := hp.2.1
    have n1 := q1.ne'
    have d2 := raw_diff 2 y
    have q2 := hp.2.2.1
    have n2 := q2.ne'
    have d4 := raw_diff 4 y
    have q4 := hp.2.2.2.2.1
    have n4 := q4.ne'
    have d5 := raw_diff 5 y
    have q5 := hp.2.2.2.2.2.1
    have n5 := q5.ne'
    have qx0 := hp.2.2.2.2.2.2.1
    have nx0 := qx0.ne'
    have qc0 := hp.2.2.2.2.2.2.2
    have nc0 := qc0.ne'
    try simp only [S23, S24, D2GDR2DT, zero_mul, mul_zero, add_zero, zero_add, sub_zero]
    ddo
  · have hp := pos y hy
    have h := c_D2GDR2DT (hl y u ((.inl iT))) (hl y u ((.inl iP))) (hl y u ((.inl (.inl 0)))) (hl y u ((.inl (.inl
        1)))) (hl y u ((.inl (.inl 2)))) (hl y u ((.inr 0))) (raw_line1 y u) (by simpa only
        [zero_mul, add_zero] using hp.2.1) (raw_line2 y u) (by simpa only [zero_mul, add_zero]
        using hp.2.2.1) (raw_line4 y u) (by simpa only [zero_mul, add_zero] using hp.2.2.2.2.1)
        (raw_line5 y u) (by simpa only [zero_mul, add_zero] using hp.2.2.2.2.2.1) (by simpa only
        [zero_mul, add_zero] using hp.2.2.2.2.2.2.1)
    try simp only [zero_mul, add_zero] at h
    refine h.congr_deriv ?_
    rw [sum_var]; simp only [Fin.sum_univ_one, Fin.sum_univ_three]; rfl

lemma gr_d2gdrdp_2 (y : Var 3 1 → ℝ) (hy : Dom y) :
    Gr (fun y => (tables (raw y) y).d2gdrdp 2) y ((tables (raw y) y).at3 (.inl (.inl 2)) (.inl iP)) := by
  refine Gr.of_lines ?_ fun u => ?_
  · have hp := pos y hy
    change DifferentiableAt ℝ (fun y => D2GDR2DP (y (.inl (.inl 0))) (y (.inr 0))) y
    have qx0 := hp.2.2.2.2.2.2.1
    have nx0 := qx0.ne'
    have qc0 := hp.2.2.2.2.2.2.2
    have nc0 := qc0.ne'
    try simp only [VX, D2GDR2DP, zero_mul, mul_zero, add_zero, zero_add, sub_zero]
    ddo
  · have hp := pos y hy
    have h := c_D2GDR2DP (hl y u ((.inl iT))) (hl y u ((.inl iP))) (hl y u ((.inl (.inl 0)))) (hl y u ((.inl (.inl
        1)))) (hl y u ((.inl (.inl 2)))) (hl y u ((.inr 0)))
    try simp only [zero_mul, add_zero] at h
    refine h.congr_deriv ?_
    rw [sum_var]; simp only [Fin.sum_univ_one, Fin.sum_univ_three]; rfl

lemma gr_d2gds2_0_0 (y : Var 3 1 → ℝ) (hy : Dom y) :
    Gr (fun y => (tables (raw y) y).d2gds2 0 0) y ((tables (raw y) y).at3 (.inr 0) (.inr 0)) := by
  refine Gr.of_lines ?_ fun u => ?_
  · have hp := pos y hy
    change DifferentiableAt ℝ (fun y => D2GDS0S0 (y (.inl iT)) (y (.inl iP)) (y (.inl (.inl 0))) (y (.inl (.inl 1))) (y (.inr 0)) (raw y 0) (raw y 2) (raw y 3) (raw y 5)) y
    have d0 := raw_diff 0 y
    have q0 := hp.1
    have n0 := q0.ne'
    have d2 := raw_diff 2 y
    have q2 := hp.2.2.1
    have n2 := q2.ne'
    have d3 := raw_diff 3 y
    have q3 := hp.2.2.2.1
    have n3 := q3.ne'
    have d5 := raw_diff 5 y
    have q5 := hp.2.2.2.2.2.1
    have n5 := q5.ne'
    have qx0 := hp.2.2.2.2.2.2.1
    have nx0 := qx0.ne'
    have qc0 := hp.2.2.2.2.2.2.2
    have nc0 := qc0.ne'
    try simp only [VX, GX, WNAKLS, WNAKSS, DWKNALS, DWKNASS, DWVNASS, DWVNALS, DWVKLS, AWLS, AWSS, D2GDS0S0, zero_mul, mul_zero, add_zero, zero_add, sub_zero]
    ddo
  · have hp := pos y hy
    have h := c_D2GDS0S0 (hl y u ((.inl iT))) (hl y u ((.inl iP))) (hl y u ((.inl (.inl 0)))) (hl y u ((.inl (.inl
        1)))) (hl y u ((.inl (.inl 2)))) (hl y u ((.inr 0))) (raw_line0 y u) (by simpa only
        [zero_mul, add_zero] using hp.1) (raw_line2 y u) (by simpa only [zero_mul, add_zero] using
        hp.2.2.1) (raw_line3 y u) (by simpa only [zero_mul, add_zero] using hp.2.2.2.1) (raw_line5
        y u) (by simpa only [zero_mul, add_zero] using hp.2.2.2.2.2.1) (by simpa only [zero_mul,
        add_zero] using hp.2.2.2.2.2.2.2)
    try simp only [zero_mul, add_zero] at h
    refine h.congr_deriv ?_
    rw [sum_var]; simp only [Fin.sum_univ_one, Fin.sum_univ_three]; rfl

lemma gr_d2gdsdt_0 (y : Var 3 1 → ℝ) (hy : Dom y) :
    Gr (fun y => (tables (raw y) y).d2gdsdt 0) y ((tables (raw y) y).at3 (.inr 0) (.inl iT)) := by
  refine Gr.of_lines ?_ fun u => ?_
  · have hp := pos y hy
    change DifferentiableAt ℝ (fun y => D2GDS0DT (y (.inl (.inl 0))) (y (.inl (.inl 1))) (y (.inl (.inl 2))) (y (.inr 0)) (raw y 0) (raw y 2) (raw y 3) (raw y 5)) y
    have d0 := raw_diff 0 y
    have q0 := hp.1
    have n0 := q0.ne'
    have d2 := raw_diff 2 y
    have q2 := hp.2.2.1
    have n2 := q2.ne'
    have d3 := raw_diff 3 y
    have q3 := hp.2.2.2.1
    have n3 := q3.ne'
    have d5 := raw_diff 5 y
    have q5 := hp.2.2.2.2.2.1
    have n5 := q5.ne'
    have qx0 := hp.2.2.2.2.2.2.1
    have nx0 := qx0.ne'
    have qc0 := hp.2.2.2.2.2.2.2
    have nc0 := qc0.ne'
    try simp only [S23, S24, D2GDS0DT, zero_mul, mul_zero, add_zero, zero_add, sub_zero]
    ddo
  · have hp := pos y hy
    have h := c_D2GDS0DT (hl y u ((.inl iT))) (hl y u ((.inl iP))) (hl y u ((.inl (.inl 0)))) (hl y u ((.inl (.inl
        1)))) (hl y u ((.inl (.inl 2)))) (hl y u ((.inr 0))) (raw_line0 y u) (by simpa only
        [zero_mul, add_zero] using hp.1) (raw_line2 y u) (by simpa only [zero_mul, add_zero] using
        hp.2.2.1) (raw_line3 y u) (by simpa only [zero_mul, add_zero] using hp.2.2.2.1) (raw_line5
        y u) (by simpa only [zero_mul, add_zero] using hp.2.2.2.2.2.1) (by simpa only [zero_mul,
        add_zero] using hp.2.2.2.2.2.2.2)
    try simp only [zero_mul, add_zero] at h
    refine h.congr_deriv ?_
    rw [sum_var]; simp only [Fin.sum_univ_one, Fin.sum_univ_three]; rfl

lemma gr_d2gdsdp_0 (y : Var 3 1 → ℝ) (hy : Dom y) :
    Gr (fun y => (tables (raw y) y).d2gdsdp 0) y ((tables (raw y) y).at3 (.inr 0) (.inl iP)) := by
  refine Gr.of_lines ?_ fun u => ?_
  · have hp := pos y hy
    change DifferentiableAt ℝ (fun y => D2GDS0DP (y (.inl (.inl 0))) (y (.inl (.inl 1))) (y (.inl (.inl 2))) (y (.inr 0))) y
    have qx0 := hp.2.2.2.2.2.2.1
    have nx0 := qx0.ne'
    have qc0 := hp.2.2.2.2.2.2.2
    have nc0 := qc0.ne'
    try simp only [VX, D2GDS0DP, zero_mul, mul_zero, add_zero, zero_add, sub_zero]
    ddo
  · have hp := pos y hy
    have h := c_D2GDS0DP (hl y u ((.inl iT))) (hl y u ((.inl iP))) (hl y u ((.inl (.inl 0)))) (hl y u ((.inl (.inl
        1)))) (hl y u ((.inl (.inl 2)))) (hl y u ((.inr 0))) (by simpa only [zero_mul, add_zero]
        using hp.2.2.2.2.2.2.2)
    try simp only [zero_mul, add_zero] at h
    refine h.congr_deriv ?_
    rw [sum_var]; simp only [Fin.sum_univ_one, Fin.sum_univ_three]; rfl

lemma gr_d2gdt2 (y : Var 3 1 → ℝ) (hy : Dom y) :
    Gr (fun y => (tables (raw y) y).d2gdt2) y ((tables (raw y) y).at3 (.inl iT) (.inl iT)) := by
  refine Gr.of_lines ?_ fun u => ?_
  · have hp := pos y hy
    change DifferentiableAt ℝ (fun y => D2GDT2) y
    have qx0 := hp.2.2.2.2.2.2.1
    have nx0 := qx0.ne'
    have qc0 := hp.2.2.2.2.2.2.2
    have nc0 := qc0.ne'
    try simp only [D2GDT2, zero_mul, mul_zero, add_zero, zero_add, sub_zero]
    ddo
  · have hp := pos y hy
    have h := c_D2GDT2 (hl y u ((.inl iT))) (hl y u ((.inl iP))) (hl y u ((.inl (.inl 0)))) (hl y u ((.inl (.inl
        1)))) (hl y u ((.inl (.inl 2)))) (hl y u ((.inr 0)))
    try simp only [zero_mul, add_zero] at h
    refine h.congr_deriv ?_
    rw [sum_var]; simp only [Fin.sum_univ_one, Fin.sum_univ_three]; rfl

lemma gr_d2gdtdp (y : Var 3 1 → ℝ) (hy : Dom y) :
    Gr (fun y => (tables (raw y) y).d2gdtdp) y ((tables (raw y) y).at3 (.inl iT) (.inl iP)) := by
  refine Gr.of_lines ?_ fun u => ?_
  · have hp := pos y hy
    change DifferentiableAt ℝ (fun y => D2GDTDP) y
    have qx0 := hp.2.2.2.2.2.2.1
    have nx0 := qx0.ne'
    have qc0 := hp.2.2.2.2.2.2.2
    have nc0 := qc0.ne'
    try simp only [D2GDTDP, zero_mul, mul_zero, add_zero, zero_add, sub_zero]
    ddo
  · have hp := pos y hy
    have h := c_D2GDTDP (hl y u ((.inl iT))) (hl y u ((.inl iP))) (hl y u ((.inl (.inl 0)))) (hl y u ((.inl (.inl
        1)))) (hl y u ((.inl (.inl 2)))) (hl y u ((.inr 0)))
    try simp only [zero_mul, add_zero] at h
    refine h.congr_deriv ?_
    rw [sum_var]; simp only [Fin.sum_univ_one, Fin.sum_univ_three]; rfl

lemma gr_d2gdp2 (y : Var 3 1 → ℝ) (hy : Dom y) :
    Gr (fun y => (tables (raw y) y).d2gdp2) y ((tables (raw y) y).at3 (.inl iP) (.inl iP)) := by
  refine Gr.of_lines ?_ fun u => ?_
  · have hp := pos y hy
    change DifferentiableAt ℝ (fun y => D2GDP2) y
    have qx0 := hp.2.2.2.2.2.2.1
    have nx0 := qx0.ne'
    have qc0 := hp.2.2.2.2.2.2.2
    have nc0 := qc0.ne'
    try simp only [D2GDP2, zero_mul, mul_zero, add_zero, zero_add, sub_zero]
    ddo
  · have hp := pos y hy
    have h := c_D2GDP2 (hl y u ((.inl iT))) (hl y u ((.inl iP))) (hl y u ((.inl (.inl 0)))) (hl y u ((.inl (.inl
        1)))) (hl y u ((.inl (.inl 2)))) (hl y u ((.inr 0)))
    try simp only [zero_mul, add_zero] at h
    refine h.congr_deriv ?_
    rw [sum_var]; simp only [Fin.sum_univ_one, Fin.sum_univ_three]; rfl

lemma symm (x : Fin 6 → ℝ) (y : Var 3 1 → ℝ) : (tables x y).Symm := by
  constructor
  · intro i j; fin_cases i <;> fin_cases j <;> rfl
  · intro i j; fin_cases i <;> fin_cases j <;> rfl
  · intro i j k; fin_cases i <;> fin_cases j <;> fin_cases k <;> exact ⟨rfl, rfl⟩
  · intro i j k; fin_cases i <;> fin_cases j <;> fin_cases k <;> rfl
  · intro i j; fin_cases i <;> fin_cases j <;> rfl
  · intro i j; fin_cases i <;> fin_cases j <;> rfl
  · intro i j k; fin_cases i <;> fin_cases j <;> fin_cases k <;> rfl
  · intro i j k; fin_cases i <;> fin_cases j <;> fin_cases k <;> exact ⟨rfl, rfl⟩
  · intro i j; fin_cases i <;> fin_cases j <;> rfl
  · intro i j; fin_cases i <;> fin_cases j <;> rfl

lemma ok_raw : (jets fun y => tables (raw y) y).Ok Dom := by
  refine jets_ok (fun y _ => symm (raw y) y) gr_g ?_ gr_dgdt gr_dgdp ?_ ?_ ?_ ?_ ?_ ?_ ?_ ?_ gr_d2gdt2 gr_d2gdtdp gr_d2gdp2
  · intro y hy i
    fin_cases i
    · exact gr_dgdr_0 y hy
    · exact gr_dgdr_1 y hy
    · exact gr_dgdr_2 y hy
  · intro y hy i
    fin_cases i
    · exact gr_dgds_0 y hy
  · intro y hy i j
    fin_cases i <;> fin_cases j
    · exact gr_d2gdr2_0_0 y hy
    · exact gr_d2gdr2_0_1 y hy
    · exact gr_d2gdr2_0_2 y hy
    · exact (gr_d2gdr2_0_1 y hy).congr_d (funext fun k => ((symm (raw y) y).at3 _ _ k).1)
    · exact gr_d2gdr2_1_1 y hy
    · exact gr_d2gdr2_1_2 y hy
    · exact (gr_d2gdr2_0_2 y hy).congr_d (funext fun k => ((symm (raw y) y).at3 _ _ k).1)
    · exact (gr_d2gdr2_1_2 y hy).congr_d (funext fun k => ((symm (raw y) y).at3 _ _ k).1)
    · exact gr_d2gdr2_2_2 y hy
  · intro y hy i j
    fin_cases i <;> fin_cases j
    · exact gr_d2gdrds_0_0 y hy
    · exact gr_d2gdrds_1_0 y hy
    · exact gr_d2gdrds_2_0 y hy
  · intro y hy i
    fin_cases i
    · exact gr_d2gdrdt_0 y hy
    · exact gr_d2gdrdt_1 y hy
    · exact gr_d2gdrdt_2 y hy
  · intro y hy i
    fin_cases i
    · exact gr_d2gdrdp_0 y hy
    · exact gr_d2gdrdp_1 y hy
    · exact gr_d2gdrdp_2 y hy
  · intro y hy i j
    fin_cases i <;> fin_cases j
    · exact gr_d2gds2_0_0 y hy
  · intro y hy i
    fin_cases i
    · exact gr_d2gdsdt_0 y hy
  · intro y hy i
    fin_cases i
    · exact gr_d2gdsdp_0 y hy

lemma site_eq (y : Var 3 1 → ℝ) (hy : Dom y) : site y = raw y := by
  obtain ⟨h0, h1, h2, h3, h4, h5, h6⟩ := hy
  funext k; fin_cases k
  · exact keep_eq h0.1 h0.2
  · exact keep_eq h1.1 h1.2
  · exact keep_eq h2.1 h2.2
  · exact keep_eq h3.1 h3.2
  · exact keep_eq h4.1 h4.2
  · exact keep_eq h5.1 h5.2

lemma dom_open : IsOpen {y | Dom y} := by
  have hc : ∀ k, Continuous fun y => raw y k := fun k =>
    continuous_iff_continuousAt.2 fun y => (raw_diff k y).continuousAt
  have hv : ∀ i, Continuous fun y : Var 3 1 → ℝ => y i := fun i => continuous_apply i
  exact ((isOpen_lt continuous_const (hc 0)).inter (isOpen_lt (hc 0) continuous_const)).inter (((isOpen_lt
    continuous_const (hc 1)).inter (isOpen_lt (hc 1) continuous_const)).inter (((isOpen_lt continuous_const (hc
    2)).inter (isOpen_lt (hc 2) continuous_const)).inter (((isOpen_lt continuous_const (hc 3)).inter (isOpen_lt
    (hc 3) continuous_const)).inter (((isOpen_lt continuous_const (hc 4)).inter (isOpen_lt (hc 4)
    continuous_const)).inter (((isOpen_lt continuous_const (hc 5)).inter (isOpen_lt (hc 5)
    continuous_const)).inter (isOpen_lt continuous_const (hv _)))))))

/-- The arrays of nepheline.c are the derivatives of its Gibbs energy to third order. -/
theorem ok : (jets macros).Ok Dom :=
  ok_congr dom_open (fun y hy => by unfold macros; rw [site_eq y hy]) ok_raw

lemma entropy_eq (y : Var 3 1 → ℝ) : (jets macros).g1 y (.inl iT) = -(macros y).s := by
  change DGDT (y (.inl (.inl 0))) (y (.inl (.inl 1))) (y (.inl (.inl 2))) (y (.inr 0)) (site y 0) (site y 1) (site y 2) (site y 3) (site y 4) (site y 5) = -(S (y (.inl (.inl 0))) (y (.inl (.inl 1))) (y (.inl (.inl 2))) (y (.inr 0)) (site y 0) (site y 1) (site y 2) (site y 3) (site y 4) (site y 5))
  simp only [DGDT]

end Nepheline

end

end Verif.Thermo.Ordering
