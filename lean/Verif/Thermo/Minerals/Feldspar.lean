import Verif.Thermo.Mixing
import Mathlib.Tactic.FinCases

/-!
Feldspar. Generated by /verif/tools/gen/genmix.py from the macros of /repo/sources: one definition per macro, with the
macros it mentions as definitions (the generator checks that this has the value of C's textual substitution). The
theorem `C24_*` of each phase says that the outputs of its mixing functions fit together (`Mix.Consistent`) wherever
the site fractions are above `DBL_EPSILON`. Simplification: `double` is the real numbers.
-/

set_option linter.unusedVariables false
set_option linter.unusedTactic false
set_option linter.unreachableTactic false
set_option linter.unusedSimpArgs false

namespace Magma.Thermo.Mixing

open Magma.Thermo.Extensive Magma.Thermo.Compo

noncomputable section

namespace Feldspar

/-- `wsabor`, feldspar.c 129. -/
def wsabor : ℝ := (103 / 10)

/-- `wsorab`, feldspar.c 132. -/
def wsorab : ℝ := (103 / 10)

/-- `S`, feldspar.c 160-161. -/
def S (t p r0 r1 xab xan xOr : ℝ) : ℝ :=
  (-R) * (xab * LOG xab + xan * LOG xan + xOr * LOG xOr) + wsabor * xab * xOr * (xOr + xan / 2) + wsorab * xab
    * xOr * (xab + xan / 2)

/-- `whaban`, feldspar.c 134. -/
def whaban : ℝ := 7924

/-- `whanab`, feldspar.c 135. -/
def whanab : ℝ := 0

/-- `whabor`, feldspar.c 128. -/
def whabor : ℝ := 18810

/-- `whorab`, feldspar.c 131. -/
def whorab : ℝ := 27320

/-- `whanor`, feldspar.c 137. -/
def whanor : ℝ := 38974

/-- `whoran`, feldspar.c 136. -/
def whoran : ℝ := 40317

/-- `whabanor`, feldspar.c 139. -/
def whabanor : ℝ := 12545

/-- `H`, feldspar.c 162-165. -/
def H (t p r0 r1 xab xan xOr : ℝ) : ℝ :=
  whaban * xab * xan * (xan + xOr / 2) + whanab * xab * xan * (xab + xOr / 2) + whabor * xab * xOr * (xOr +
    xan / 2) + whorab * xab * xOr * (xab + xan / 2) + whanor * xan * xOr * (xOr + xab / 2) + whoran * xan * xOr
    * (xan + xab / 2) + whabanor * xab * xan * xOr

/-- `wvabor`, feldspar.c 130. -/
def wvabor : ℝ := (2301 / 5000)

/-- `wvorab`, feldspar.c 133. -/
def wvorab : ℝ := (204 / 625)

/-- `wvanor`, feldspar.c 138. -/
def wvanor : ℝ := -(1037 / 10000)

/-- `wvabanor`, feldspar.c 140. -/
def wvabanor : ℝ := -(219 / 200)

/-- `V`, feldspar.c 166-167. -/
def V (t p r0 r1 xab xan xOr : ℝ) : ℝ :=
  wvabor * xab * xOr * (xOr + xan / 2) + wvorab * xab * xOr * (xab + xan / 2) + wvanor * xan * xOr * (xOr +
    xab / 2) + wvabanor * xab * xan * xOr

/-- `G`, feldspar.c 168. -/
def G (t p r0 r1 xab xan xOr : ℝ) : ℝ :=
  (H t p r0 r1 xab xan xOr) - t * (S t p r0 r1 xab xan xOr) + (p - 1) * (V t p r0 r1 xab xan xOr)

/-- `DGDR0`, feldspar.c 170-179. -/
def DGDR0 (t p r0 r1 xab xan xOr : ℝ) : ℝ :=
  R * t * (LOG xab - LOG xOr) + whaban * (xan * (xan + xOr / 2) - (1 / 2) * xab * xan) + whanab * (xan * (xab
    + xOr / 2) + (1 / 2) * xab * xan) + (whabor - t * wsabor + (p - 1) * wvabor) * ((xOr - xab) * (xOr + xan /
    2) - xab * xOr) + (whorab - t * wsorab + (p - 1) * wvorab) * ((xOr - xab) * (xab + xan / 2) + xab * xOr) +
    (whanor + (p - 1) * wvanor) * ((-xan) * (xOr + xab / 2) - (1 / 2) * xan * xOr) + whoran * ((-xan) * (xan +
    xab / 2) + (1 / 2) * xan * xOr) + (whabanor + (p - 1) * wvabanor) * xan * (xOr - xab)

/-- `DGDR1`, feldspar.c 180-189. -/
def DGDR1 (t p r0 r1 xab xan xOr : ℝ) : ℝ :=
  R * t * (LOG xan - LOG xOr) + whaban * (xab * (xan + xOr / 2) + (1 / 2) * xab * xan) + whanab * (xab * (xab
    + xOr / 2) - (1 / 2) * xab * xan) + (whabor - t * wsabor + (p - 1) * wvabor) * ((-xab) * (xOr + xan / 2) -
    (1 / 2) * xab * xOr) + (whorab - t * wsorab + (p - 1) * wvorab) * ((-xab) * (xab + xan / 2) + (1 / 2) * xab
    * xOr) + (whanor + (p - 1) * wvanor) * ((xOr - xan) * (xOr + xab / 2) - xan * xOr) + whoran * ((xOr - xan) *
    (xan + xab / 2) + xan * xOr) + (whabanor + (p - 1) * wvabanor) * xab * (xOr - xan)

/-- `DGDP`, feldspar.c 190. -/
def DGDP (t p r0 r1 xab xan xOr : ℝ) : ℝ :=
  (V t p r0 r1 xab xan xOr)

/-- `D2GDR0R0`, feldspar.c 192-198. -/
def D2GDR0R0 (t p r0 r1 xab xan xOr : ℝ) : ℝ :=
  R * t * (1 / xab + 1 / xOr) + (whanab - whaban) * xan - 2 * (whabor - t * wsabor + (p - 1) * wvabor) * (xOr
    + xan / 2 + (xOr - xab)) - 2 * (whorab - t * wsorab + (p - 1) * wvorab) * (xab + xan / 2 - (xOr - xab)) +
    (whanor + (p - 1) * wvanor - whoran) * xan + (-2) * (whabanor + (p - 1) * wvabanor) * xan

/-- `D2GDR0R1`, feldspar.c 199-206. -/
def D2GDR0R1 (t p r0 r1 xab xan xOr : ℝ) : ℝ :=
  R * t / xOr + whaban * (xan + xOr / 2 + (1 / 2) * xan - (1 / 2) * xab) + whanab * (xab + xOr / 2 - (1 / 2) *
    xan + (1 / 2) * xab) + (1 / 2) * (whabor - t * wsabor + (p - 1) * wvabor) * (3 * xab - xan - 3 * xOr) + (1 /
    2) * (whorab - t * wsorab + (p - 1) * wvorab) * (xOr - 5 * xab - xan) + (1 / 2) * (whanor + (p - 1) *
    wvanor) * (3 * xan - 3 * xOr - xab) + (1 / 2) * whoran * (xOr - 5 * xan - xab) + (whabanor + (p - 1) *
    wvabanor) * (xOr - xab - xan)

/-- `D2GDR0DT`, feldspar.c 207-209. -/
def D2GDR0DT (t p r0 r1 xab xan xOr : ℝ) : ℝ :=
  R * (LOG xab - LOG xOr) - wsabor * ((xOr - xab) * (xOr + xan / 2) - xab * xOr) - wsorab * ((xOr - xab) *
    (xab + xan / 2) + xab * xOr)

/-- `D2GDR0DP`, feldspar.c 210-213. -/
def D2GDR0DP (t p r0 r1 xab xan xOr : ℝ) : ℝ :=
  wvabor * ((xOr - xab) * (xOr + xan / 2) - xab * xOr) + wvorab * ((xOr - xab) * (xab + xan / 2) + xab * xOr)
    + wvanor * ((-xan) * (xOr + xab / 2) - (1 / 2) * xan * xOr) + wvabanor * xan * (xOr - xab)

/-- `D2GDR1R1`, feldspar.c 215-220. -/
def D2GDR1R1 (t p r0 r1 xab xan xOr : ℝ) : ℝ :=
  R * t * (1 / xan + 1 / xOr) + xab * (whaban - whanab) + (whabor - t * wsabor + (p - 1) * wvabor) * xab -
    (whorab - t * wsorab + (p - 1) * wvorab) * xab + (whanor + (p - 1) * wvanor) * (2 * xan - 4 * xOr - xab) +
    whoran * (2 * xOr - 4 * xan - xab) - 2 * (whabanor + (p - 1) * wvabanor) * xab

/-- `D2GDR1DT`, feldspar.c 221-223. -/
def D2GDR1DT (t p r0 r1 xab xan xOr : ℝ) : ℝ :=
  R * (LOG xan - LOG xOr) - wsabor * ((-xab) * (xOr + xan / 2) - (1 / 2) * xab * xOr) - wsorab * ((-xab) *
    (xab + xan / 2) + (1 / 2) * xab * xOr)

/-- `D2GDR1DP`, feldspar.c 224-227. -/
def D2GDR1DP (t p r0 r1 xab xan xOr : ℝ) : ℝ :=
  wvabor * ((-xab) * (xOr + xan / 2) - (1 / 2) * xab * xOr) + wvorab * ((-xab) * (xab + xan / 2) + (1 / 2) *
    xab * xOr) + wvanor * ((xOr - xan) * (xOr + xab / 2) - xan * xOr) + wvabanor * xab * (xOr - xan)

/-- `D2GDT2`, feldspar.c 228. -/
def D2GDT2 (t p r0 r1 xab xan xOr : ℝ) : ℝ :=
  0

/-- `D2GDTDP`, feldspar.c 229. -/
def D2GDTDP (t p r0 r1 xab xan xOr : ℝ) : ℝ :=
  0

/-- `D2GDP2`, feldspar.c 230. -/
def D2GDP2 (t p r0 r1 xab xan xOr : ℝ) : ℝ :=
  0

/-- `D3GDR0R0R0`, feldspar.c 232-234. -/
def D3GDR0R0R0 (t p r0 r1 xab xan xOr : ℝ) : ℝ :=
  R * t * (1 / xOr ^ 2 - 1 / xab ^ 2) + 6 * (whabor - t * wsabor + (p - 1) * wvabor) - 6 * (whorab - t *
    wsorab + (p - 1) * wvorab)

/-- `D3GDR0R0R1`, feldspar.c 235-238. -/
def D3GDR0R0R1 (t p r0 r1 xab xan xOr : ℝ) : ℝ :=
  R * t * (1 / xOr ^ 2) + (whanab - whaban) + 3 * (whabor - t * wsabor + (p - 1) * wvabor) - 3 * (whorab - t *
    wsorab + (p - 1) * wvorab) + (whanor + (p - 1) * wvanor - whoran) - 2 * (whabanor + (p - 1) * wvabanor)

/-- `D3GDR0R0DT`, feldspar.c 239-241. -/
def D3GDR0R0DT (t p r0 r1 xab xan xOr : ℝ) : ℝ :=
  R * (1 / xab + 1 / xOr) + 2 * wsabor * (xOr + xan / 2 + (xOr - xab)) + 2 * wsorab * (xab + xan / 2 - (xOr -
    xab))

/-- `D3GDR0R0DP`, feldspar.c 242-244. -/
def D3GDR0R0DP (t p r0 r1 xab xan xOr : ℝ) : ℝ :=
  (-2) * wvabor * (xOr + xan / 2 + (xOr - xab)) - 2 * wvorab * (xab + xan / 2 - (xOr - xab)) + wvanor * xan -
    2 * wvabanor * xan

/-- `D3GDR0R1DT`, feldspar.c 245-246. -/
def D3GDR0R1DT (t p r0 r1 xab xan xOr : ℝ) : ℝ :=
  R / xOr - (1 / 2) * wsabor * (3 * xab - xan - 3 * xOr) - (1 / 2) * wsorab * (xOr - 5 * xab - xan)

/-- `D3GDR0R1DP`, feldspar.c 247-250. -/
def D3GDR0R1DP (t p r0 r1 xab xan xOr : ℝ) : ℝ :=
  (1 / 2) * wvabor * (3 * xab - xan - 3 * xOr) + (1 / 2) * wvorab * (xOr - 5 * xab - xan) + (1 / 2) * wvanor *
    (3 * xan - 3 * xOr - xab) + wvabanor * (xOr - xab - xan)

/-- `D3GDR1R1R1`, feldspar.c 251-252. -/
def D3GDR1R1R1 (t p r0 r1 xab xan xOr : ℝ) : ℝ :=
  R * t * (1 / xOr ^ 2 - 1 / xan ^ 2) + 6 * (whanor + (p - 1) * wvanor) - 6 * whoran

/-- `D3GDR1R1R0`, feldspar.c 253-256. -/
def D3GDR1R1R0 (t p r0 r1 xab xan xOr : ℝ) : ℝ :=
  R * t * (1 / xOr ^ 2) + (whaban - whanab) + (whabor - t * wsabor + (p - 1) * wvabor) - (whorab - t * wsorab
    + (p - 1) * wvorab) + 3 * (whanor + (p - 1) * wvanor) - 3 * whoran - 2 * (whabanor + (p - 1) * wvabanor)

/-- `D3GDR1R1DT`, feldspar.c 257. -/
def D3GDR1R1DT (t p r0 r1 xab xan xOr : ℝ) : ℝ :=
  R * (1 / xan + 1 / xOr) + (wsorab - wsabor) * xab

/-- `D3GDR1R1DP`, feldspar.c 258-259. -/
def D3GDR1R1DP (t p r0 r1 xab xan xOr : ℝ) : ℝ :=
  (wvabor - wvorab) * xab + wvanor * (2 * xan - 4 * xOr - xab) - 2 * wvabanor * xab

/-- `D3GDT3`, feldspar.c 260. -/
def D3GDT3 (t p r0 r1 xab xan xOr : ℝ) : ℝ :=
  0

/-- `D3GDT2DP`, feldspar.c 261. -/
def D3GDT2DP (t p r0 r1 xab xan xOr : ℝ) : ℝ :=
  0

/-- `D3GDTDP2`, feldspar.c 262. -/
def D3GDTDP2 (t p r0 r1 xab xan xOr : ℝ) : ℝ :=
  0

/-- `D3GDP3`, feldspar.c 263. -/
def D3GDP3 (t p r0 r1 xab xan xOr : ℝ) : ℝ :=
  0

/-- `D3GDR0DT2`, feldspar.c 265. -/
def D3GDR0DT2 (t p r0 r1 xab xan xOr : ℝ) : ℝ :=
  0

/-- `D3GDR0DTDP`, feldspar.c 266. -/
def D3GDR0DTDP (t p r0 r1 xab xan xOr : ℝ) : ℝ :=
  0

/-- `D3GDR0DP2`, feldspar.c 267. -/
def D3GDR0DP2 (t p r0 r1 xab xan xOr : ℝ) : ℝ :=
  0

/-- `D3GDR1DT2`, feldspar.c 268. -/
def D3GDR1DT2 (t p r0 r1 xab xan xOr : ℝ) : ℝ :=
  0

/-- `D3GDR1DTDP`, feldspar.c 269. -/
def D3GDR1DTDP (t p r0 r1 xab xan xOr : ℝ) : ℝ :=
  0

/-- `D3GDR1DP2`, feldspar.c 270. -/
def D3GDR1DP2 (t p r0 r1 xab xan xOr : ℝ) : ℝ :=
  0

/-- `D3GDR0R1R1`, feldspar.c 253-256. -/
def D3GDR0R1R1 (t p r0 r1 xab xan xOr : ℝ) : ℝ :=
  R * t * (1 / xOr ^ 2) + (whaban - whanab) + (whabor - t * wsabor + (p - 1) * wvabor) - (whorab - t * wsorab
    + (p - 1) * wvorab) + 3 * (whanor + (p - 1) * wvanor) - 3 * whoran - 2 * (whabanor + (p - 1) * wvabanor)

/-- The macros as the functions of feldspar.c use them: `gmix`, `hmix`, `smix`, `cpmix`, `vmix` and `act`. -/
def F (x : Fin 3 → ℝ) : Mix 2 where
  g t p r := G t p (r 0) (r 1) (x 0) (x 1) (x 2)
  gr t p r := ![DGDR0 t p (r 0) (r 1) (x 0) (x 1) (x 2), DGDR1 t p (r 0) (r 1) (x 0) (x 1) (x 2)]
  grr t p r := ![![D2GDR0R0 t p (r 0) (r 1) (x 0) (x 1) (x 2), D2GDR0R1 t p (r 0) (r 1) (x 0) (x 1) (x 2)], ![D2GDR0R1 t p (r 0) (r 1) (x 0) (x 1) (x 2), D2GDR1R1 t p (r 0) (r 1) (x 0) (x 1) (x 2)]]
  grrr t p r := ![![![D3GDR0R0R0 t p (r 0) (r 1) (x 0) (x 1) (x 2), D3GDR0R0R1 t p (r 0) (r 1) (x 0) (x 1) (x 2)], ![D3GDR0R0R1 t p (r 0) (r 1) (x 0) (x 1) (x 2), D3GDR0R1R1 t p (r 0) (r 1) (x 0) (x 1) (x 2)]], ![![D3GDR0R0R1 t p (r 0) (r 1) (x 0) (x 1) (x 2), D3GDR0R1R1 t p (r 0) (r 1) (x 0) (x 1) (x 2)], ![D3GDR0R1R1 t p (r 0) (r 1) (x 0) (x 1) (x 2), D3GDR1R1R1 t p (r 0) (r 1) (x 0) (x 1) (x 2)]]]
  h t p r := (G t p (r 0) (r 1) (x 0) (x 1) (x 2)) + t * (S t p (r 0) (r 1) (x 0) (x 1) (x 2))
  s t p r := S t p (r 0) (r 1) (x 0) (x 1) (x 2)
  sr t p r := ![-(D2GDR0DT t p (r 0) (r 1) (x 0) (x 1) (x 2)), -(D2GDR1DT t p (r 0) (r 1) (x 0) (x 1) (x 2))]
  srr t p r := ![![-(D3GDR0R0DT t p (r 0) (r 1) (x 0) (x 1) (x 2)), -(D3GDR0R1DT t p (r 0) (r 1) (x 0) (x 1) (x 2))], ![-(D3GDR0R1DT t p (r 0) (r 1) (x 0) (x 1) (x 2)), -(D3GDR1R1DT t p (r 0) (r 1) (x 0) (x 1) (x 2))]]
  cp t p r := -t * (D2GDT2 t p (r 0) (r 1) (x 0) (x 1) (x 2))
  cpt t p r := -t * (D3GDT3 t p (r 0) (r 1) (x 0) (x 1) (x 2)) - D2GDT2 t p (r 0) (r 1) (x 0) (x 1) (x 2)
  cpr t p r := ![-t * (D3GDR0DT2 t p (r 0) (r 1) (x 0) (x 1) (x 2)), -t * (D3GDR1DT2 t p (r 0) (r 1) (x 0) (x 1) (x 2))]
  v t p r := DGDP t p (r 0) (r 1) (x 0) (x 1) (x 2)
  vr t p r := ![D2GDR0DP t p (r 0) (r 1) (x 0) (x 1) (x 2), D2GDR1DP t p (r 0) (r 1) (x 0) (x 1) (x 2)]
  vrr t p r := ![![D3GDR0R0DP t p (r 0) (r 1) (x 0) (x 1) (x 2), D3GDR0R1DP t p (r 0) (r 1) (x 0) (x 1) (x 2)], ![D3GDR0R1DP t p (r 0) (r 1) (x 0) (x 1) (x 2), D3GDR1R1DP t p (r 0) (r 1) (x 0) (x 1) (x 2)]]
  vt t p r := D2GDTDP t p (r 0) (r 1) (x 0) (x 1) (x 2)
  vp t p r := D2GDP2 t p (r 0) (r 1) (x 0) (x 1) (x 2)
  vtt t p r := D3GDT2DP t p (r 0) (r 1) (x 0) (x 1) (x 2)
  vtp t p r := D3GDTDP2 t p (r 0) (r 1) (x 0) (x 1) (x 2)
  vpp t p r := D3GDP3 t p (r 0) (r 1) (x 0) (x 1) (x 2)
  vrt t p r := ![D3GDR0DTDP t p (r 0) (r 1) (x 0) (x 1) (x 2), D3GDR1DTDP t p (r 0) (r 1) (x 0) (x 1) (x 2)]
  vrp t p r := ![D3GDR0DP2 t p (r 0) (r 1) (x 0) (x 1) (x 2), D3GDR1DP2 t p (r 0) (r 1) (x 0) (x 1) (x 2)]
  fx r := ![x 0, x 1]

/-- Site fractions before clamping, lines 534 535 536 629 630 631 683 684 685 697 698 699 776 777 778 of feldspar.c. -/
def raw (r : Fin 2 → ℝ) : Fin 3 → ℝ := ![r 0, r 1, 1 - r 0 - r 1]

/-- The phase as coded in feldspar.c. -/
def mix : Mix 2 := ofSites F fun r k => clamp (raw r k)

theorem G_d0 (t p r0 r1 : ℝ) (h0 : 0 < r0) (h1 : 0 < r1) (h2 : 0 < 1 - r0 - r1) :
    HasDerivAt (fun r0 => G t p r0 r1 r0 r1 (1 - r0 - r1)) (DGDR0 t p r0 r1 r0 r1 (1 - r0 - r1)) r0 := by
  have n0 := h0.ne'
  have n1 := h1.ne'
  have n2 := h2.ne'
  simp only [H, S, V, G, DGDR0]
  refine HasDerivAt.congr_deriv (by hd) ?_
  all_goals first | ring1 | (field_simp; done) | (field_simp; ring1)

theorem G_d1 (t p r0 r1 : ℝ) (h0 : 0 < r0) (h1 : 0 < r1) (h2 : 0 < 1 - r0 - r1) :
    HasDerivAt (fun r1 => G t p r0 r1 r0 r1 (1 - r0 - r1)) (DGDR1 t p r0 r1 r0 r1 (1 - r0 - r1)) r1 := by
  have n0 := h0.ne'
  have n1 := h1.ne'
  have n2 := h2.ne'
  simp only [H, S, V, G, DGDR1]
  refine HasDerivAt.congr_deriv (by hd) ?_
  all_goals first | ring1 | (field_simp; done) | (field_simp; ring1)

theorem G_diff (t p : ℝ) (r : Fin 2 → ℝ) (h0 : 0 < r 0) (h1 : 0 < r 1) (h2 : 0 < 1 - r 0 - r 1) :
    DifferentiableAt ℝ (fun r : Fin 2 → ℝ => G t p (r 0) (r 1) (r 0) (r 1) (1 - r 0 - r 1)) r := by
  have n0 := h0.ne'
  have n1 := h1.ne'
  have n2 := h2.ne'
  simp only [H, S, V, G]
  dd

theorem DGDR0_d0 (t p r0 r1 : ℝ) (h0 : 0 < r0) (h1 : 0 < r1) (h2 : 0 < 1 - r0 - r1) :
    HasDerivAt (fun r0 => DGDR0 t p r0 r1 r0 r1 (1 - r0 - r1)) (D2GDR0R0 t p r0 r1 r0 r1 (1 - r0 - r1)) r0 := by
  have n0 := h0.ne'
  have n1 := h1.ne'
  have n2 := h2.ne'
  simp only [DGDR0, D2GDR0R0]
  refine HasDerivAt.congr_deriv (by hd) ?_
  all_goals first | ring1 | (field_simp; done) | (field_simp; ring1)

theorem DGDR0_d1 (t p r0 r1 : ℝ) (h0 : 0 < r0) (h1 : 0 < r1) (h2 : 0 < 1 - r0 - r1) :
    HasDerivAt (fun r1 => DGDR0 t p r0 r1 r0 r1 (1 - r0 - r1)) (D2GDR0R1 t p r0 r1 r0 r1 (1 - r0 - r1)) r1 := by
  have n0 := h0.ne'
  have n1 := h1.ne'
  have n2 := h2.ne'
  simp only [DGDR0, D2GDR0R1]
  refine HasDerivAt.congr_deriv (by hd) ?_
  all_goals first | ring1 | (field_simp; done) | (field_simp; ring1)

theorem DGDR0_diff (t p : ℝ) (r : Fin 2 → ℝ) (h0 : 0 < r 0) (h1 : 0 < r 1) (h2 : 0 < 1 - r 0 - r 1) :
    DifferentiableAt ℝ (fun r : Fin 2 → ℝ => DGDR0 t p (r 0) (r 1) (r 0) (r 1) (1 - r 0 - r 1)) r := by
  have n0 := h0.ne'
  have n1 := h1.ne'
  have n2 := h2.ne'
  simp only [DGDR0]
  dd

theorem DGDR1_d0 (t p r0 r1 : ℝ) (h0 : 0 < r0) (h1 : 0 < r1) (h2 : 0 < 1 - r0 - r1) :
    HasDerivAt (fun r0 => DGDR1 t p r0 r1 r0 r1 (1 - r0 - r1)) (D2GDR0R1 t p r0 r1 r0 r1 (1 - r0 - r1)) r0 := by
  have n0 := h0.ne'
  have n1 := h1.ne'
  have n2 := h2.ne'
  simp only [DGDR1, D2GDR0R1]
  refine HasDerivAt.congr_deriv (by hd) ?_
  all_goals first | ring1 | (field_simp; done) | (field_simp; ring1)

theorem DGDR1_d1 (t p r0 r1 : ℝ) (h0 : 0 < r0) (h1 : 0 < r1) (h2 : 0 < 1 - r0 - r1) :
    HasDerivAt (fun r1 => DGDR1 t p r0 r1 r0 r1 (1 - r0 - r1)) (D2GDR1R1 t p r0 r1 r0 r1 (1 - r0 - r1)) r1 := by
  have n0 := h0.ne'
  have n1 := h1.ne'
  have n2 := h2.ne'
  simp only [DGDR1, D2GDR1R1]
  refine HasDerivAt.congr_deriv (by hd) ?_
  all_goals first | ring1 | (field_simp; done) | (field_simp; ring1)

theorem DGDR1_diff (t p : ℝ) (r : Fin 2 → ℝ) (h0 : 0 < r 0) (h1 : 0 < r 1) (h2 : 0 < 1 - r 0 - r 1) :
    DifferentiableAt ℝ (fun r : Fin 2 → ℝ => DGDR1 t p (r 0) (r 1) (r 0) (r 1) (1 - r 0 - r 1)) r := by
  have n0 := h0.ne'
  have n1 := h1.ne'
  have n2 := h2.ne'
  simp only [DGDR1]
  dd

theorem D2GDR0R0_d0 (t p r0 r1 : ℝ) (h0 : 0 < r0) (h1 : 0 < r1) (h2 : 0 < 1 - r0 - r1) :
    HasDerivAt (fun r0 => D2GDR0R0 t p r0 r1 r0 r1 (1 - r0 - r1)) (D3GDR0R0R0 t p r0 r1 r0 r1 (1 - r0 - r1)) r0 := by
  have n0 := h0.ne'
  have n1 := h1.ne'
  have n2 := h2.ne'
  simp only [D2GDR0R0, D3GDR0R0R0]
  refine HasDerivAt.congr_deriv (by hd) ?_
  all_goals first | ring1 | (field_simp; done) | (field_simp; ring1)

theorem D2GDR0R0_d1 (t p r0 r1 : ℝ) (h0 : 0 < r0) (h1 : 0 < r1) (h2 : 0 < 1 - r0 - r1) :
    HasDerivAt (fun r1 => D2GDR0R0 t p r0 r1 r0 r1 (1 - r0 - r1)) (D3GDR0R0R1 t p r0 r1 r0 r1 (1 - r0 - r1)) r1 := by
  have n0 := h0.ne'
  have n1 := h1.ne'
  have n2 := h2.ne'
  simp only [D2GDR0R0, D3GDR0R0R1]
  refine HasDerivAt.congr_deriv (by hd) ?_
  all_goals first | ring1 | (field_simp; done) | (field_simp; ring1)

theorem D2GDR0R0_diff (t p : ℝ) (r : Fin 2 → ℝ) (h0 : 0 < r 0) (h1 : 0 < r 1) (h2 : 0 < 1 - r 0 - r 1) :
    DifferentiableAt ℝ (fun r : Fin 2 → ℝ => D2GDR0R0 t p (r 0) (r 1) (r 0) (r 1) (1 - r 0 - r 1)) r := by
  have n0 := h0.ne'
  have n1 := h1.ne'
  have n2 := h2.ne'
  simp only [D2GDR0R0]
  dd

theorem D2GDR0R1_d0 (t p r0 r1 : ℝ) (h0 : 0 < r0) (h1 : 0 < r1) (h2 : 0 < 1 - r0 - r1) :
    HasDerivAt (fun r0 => D2GDR0R1 t p r0 r1 r0 r1 (1 - r0 - r1)) (D3GDR0R0R1 t p r0 r1 r0 r1 (1 - r0 - r1)) r0 := by
  have n0 := h0.ne'
  have n1 := h1.ne'
  have n2 := h2.ne'
  simp only [D2GDR0R1, D3GDR0R0R1]
  refine HasDerivAt.congr_deriv (by hd) ?_
  all_goals first | ring1 | (field_simp; done) | (field_simp; ring1)

theorem D2GDR0R1_d1 (t p r0 r1 : ℝ) (h0 : 0 < r0) (h1 : 0 < r1) (h2 : 0 < 1 - r0 - r1) :
    HasDerivAt (fun r1 => D2GDR0R1 t p r0 r1 r0 r1 (1 - r0 - r1)) (D3GDR0R1R1 t p r0 r1 r0 r1 (1 - r0 - r1)) r1 := by
  have n0 := h0.ne'
  have n1 := h1.ne'
  have n2 := h2.ne'
  simp only [D2GDR0R1, D3GDR0R1R1]
  refine HasDerivAt.congr_deriv (by hd) ?_
  all_goals first | ring1 | (field_simp; done) | (field_simp; ring1)

theorem D2GDR0R1_diff (t p : ℝ) (r : Fin 2 → ℝ) (h0 : 0 < r 0) (h1 : 0 < r 1) (h2 : 0 < 1 - r 0 - r 1) :
    DifferentiableAt ℝ (fun r : Fin 2 → ℝ => D2GDR0R1 t p (r 0) (r 1) (r 0) (r 1) (1 - r 0 - r 1)) r := by
  have n0 := h0.ne'
  have n1 := h1.ne'
  have n2 := h2.ne'
  simp only [D2GDR0R1]
  dd

theorem D2GDR1R1_d0 (t p r0 r1 : ℝ) (h0 : 0 < r0) (h1 : 0 < r1) (h2 : 0 < 1 - r0 - r1) :
    HasDerivAt (fun r0 => D2GDR1R1 t p r0 r1 r0 r1 (1 - r0 - r1)) (D3GDR0R1R1 t p r0 r1 r0 r1 (1 - r0 - r1)) r0 := by
  have n0 := h0.ne'
  have n1 := h1.ne'
  have n2 := h2.ne'
  simp only [D2GDR1R1, D3GDR0R1R1]
  refine HasDerivAt.congr_deriv (by hd) ?_
  all_goals first | ring1 | (field_simp; done) | (field_simp; ring1)

theorem D2GDR1R1_d1 (t p r0 r1 : ℝ) (h0 : 0 < r0) (h1 : 0 < r1) (h2 : 0 < 1 - r0 - r1) :
    HasDerivAt (fun r1 => D2GDR1R1 t p r0 r1 r0 r1 (1 - r0 - r1)) (D3GDR1R1R1 t p r0 r1 r0 r1 (1 - r0 - r1)) r1 := by
  have n0 := h0.ne'
  have n1 := h1.ne'
  have n2 := h2.ne'
  simp only [D2GDR1R1, D3GDR1R1R1]
  refine HasDerivAt.congr_deriv (by hd) ?_
  all_goals first | ring1 | (field_simp; done) | (field_simp; ring1)

theorem D2GDR1R1_diff (t p : ℝ) (r : Fin 2 → ℝ) (h0 : 0 < r 0) (h1 : 0 < r 1) (h2 : 0 < 1 - r 0 - r 1) :
    DifferentiableAt ℝ (fun r : Fin 2 → ℝ => D2GDR1R1 t p (r 0) (r 1) (r 0) (r 1) (1 - r 0 - r 1)) r := by
  have n0 := h0.ne'
  have n1 := h1.ne'
  have n2 := h2.ne'
  simp only [D2GDR1R1]
  dd

theorem S_d0 (t p r0 r1 : ℝ) (h0 : 0 < r0) (h1 : 0 < r1) (h2 : 0 < 1 - r0 - r1) :
    HasDerivAt (fun r0 => S t p r0 r1 r0 r1 (1 - r0 - r1)) (-(D2GDR0DT t p r0 r1 r0 r1 (1 - r0 - r1))) r0 := by
  have n0 := h0.ne'
  have n1 := h1.ne'
  have n2 := h2.ne'
  simp only [S, D2GDR0DT]
  refine HasDerivAt.congr_deriv (by hd) ?_
  all_goals first | ring1 | (field_simp; done) | (field_simp; ring1)

theorem S_d1 (t p r0 r1 : ℝ) (h0 : 0 < r0) (h1 : 0 < r1) (h2 : 0 < 1 - r0 - r1) :
    HasDerivAt (fun r1 => S t p r0 r1 r0 r1 (1 - r0 - r1)) (-(D2GDR1DT t p r0 r1 r0 r1 (1 - r0 - r1))) r1 := by
  have n0 := h0.ne'
  have n1 := h1.ne'
  have n2 := h2.ne'
  simp only [S, D2GDR1DT]
  refine HasDerivAt.congr_deriv (by hd) ?_
  all_goals first | ring1 | (field_simp; done) | (field_simp; ring1)

theorem S_diff (t p : ℝ) (r : Fin 2 → ℝ) (h0 : 0 < r 0) (h1 : 0 < r 1) (h2 : 0 < 1 - r 0 - r 1) :
    DifferentiableAt ℝ (fun r : Fin 2 → ℝ => S t p (r 0) (r 1) (r 0) (r 1) (1 - r 0 - r 1)) r := by
  have n0 := h0.ne'
  have n1 := h1.ne'
  have n2 := h2.ne'
  simp only [S]
  dd

theorem D2GDR0DT_d0 (t p r0 r1 : ℝ) (h0 : 0 < r0) (h1 : 0 < r1) (h2 : 0 < 1 - r0 - r1) :
    HasDerivAt (fun r0 => D2GDR0DT t p r0 r1 r0 r1 (1 - r0 - r1)) (D3GDR0R0DT t p r0 r1 r0 r1 (1 - r0 - r1)) r0 := by
  have n0 := h0.ne'
  have n1 := h1.ne'
  have n2 := h2.ne'
  simp only [D2GDR0DT, D3GDR0R0DT]
  refine HasDerivAt.congr_deriv (by hd) ?_
  all_goals first | ring1 | (field_simp; done) | (field_simp; ring1)

theorem D2GDR0DT_d1 (t p r0 r1 : ℝ) (h0 : 0 < r0) (h1 : 0 < r1) (h2 : 0 < 1 - r0 - r1) :
    HasDerivAt (fun r1 => D2GDR0DT t p r0 r1 r0 r1 (1 - r0 - r1)) (D3GDR0R1DT t p r0 r1 r0 r1 (1 - r0 - r1)) r1 := by
  have n0 := h0.ne'
  have n1 := h1.ne'
  have n2 := h2.ne'
  simp only [D2GDR0DT, D3GDR0R1DT]
  refine HasDerivAt.congr_deriv (by hd) ?_
  all_goals first | ring1 | (field_simp; done) | (field_simp; ring1)

theorem D2GDR0DT_diff (t p : ℝ) (r : Fin 2 → ℝ) (h0 : 0 < r 0) (h1 : 0 < r 1) (h2 : 0 < 1 - r 0 - r 1) :
    DifferentiableAt ℝ (fun r : Fin 2 → ℝ => D2GDR0DT t p (r 0) (r 1) (r 0) (r 1) (1 - r 0 - r 1)) r := by
  have n0 := h0.ne'
  have n1 := h1.ne'
  have n2 := h2.ne'
  simp only [D2GDR0DT]
  dd

theorem D2GDR1DT_d0 (t p r0 r1 : ℝ) (h0 : 0 < r0) (h1 : 0 < r1) (h2 : 0 < 1 - r0 - r1) :
    HasDerivAt (fun r0 => D2GDR1DT t p r0 r1 r0 r1 (1 - r0 - r1)) (D3GDR0R1DT t p r0 r1 r0 r1 (1 - r0 - r1)) r0 := by
  have n0 := h0.ne'
  have n1 := h1.ne'
  have n2 := h2.ne'
  simp only [D2GDR1DT, D3GDR0R1DT]
  refine HasDerivAt.congr_deriv (by hd) ?_
  all_goals first | ring1 | (field_simp; done) | (field_simp; ring1)

theorem D2GDR1DT_d1 (t p r0 r1 : ℝ) (h0 : 0 < r0) (h1 : 0 < r1) (h2 : 0 < 1 - r0 - r1) :
    HasDerivAt (fun r1 => D2GDR1DT t p r0 r1 r0 r1 (1 - r0 - r1)) (D3GDR1R1DT t p r0 r1 r0 r1 (1 - r0 - r1)) r1 := by
  have n0 := h0.ne'
  have n1 := h1.ne'
  have n2 := h2.ne'
  simp only [D2GDR1DT, D3GDR1R1DT]
  refine HasDerivAt.congr_deriv (by hd) ?_
  all_goals first | ring1 | (field_simp; done) | (field_simp; ring1)

theorem D2GDR1DT_diff (t p : ℝ) (r : Fin 2 → ℝ) (h0 : 0 < r 0) (h1 : 0 < r 1) (h2 : 0 < 1 - r 0 - r 1) :
    DifferentiableAt ℝ (fun r : Fin 2 → ℝ => D2GDR1DT t p (r 0) (r 1) (r 0) (r 1) (1 - r 0 - r 1)) r := by
  have n0 := h0.ne'
  have n1 := h1.ne'
  have n2 := h2.ne'
  simp only [D2GDR1DT]
  dd

theorem DGDP_d0 (t p r0 r1 : ℝ) (h0 : 0 < r0) (h1 : 0 < r1) (h2 : 0 < 1 - r0 - r1) :
    HasDerivAt (fun r0 => DGDP t p r0 r1 r0 r1 (1 - r0 - r1)) (D2GDR0DP t p r0 r1 r0 r1 (1 - r0 - r1)) r0 := by
  have n0 := h0.ne'
  have n1 := h1.ne'
  have n2 := h2.ne'
  simp only [V, DGDP, D2GDR0DP]
  refine HasDerivAt.congr_deriv (by hd) ?_
  all_goals first | ring1 | (field_simp; done) | (field_simp; ring1)

theorem DGDP_d1 (t p r0 r1 : ℝ) (h0 : 0 < r0) (h1 : 0 < r1) (h2 : 0 < 1 - r0 - r1) :
    HasDerivAt (fun r1 => DGDP t p r0 r1 r0 r1 (1 - r0 - r1)) (D2GDR1DP t p r0 r1 r0 r1 (1 - r0 - r1)) r1 := by
  have n0 := h0.ne'
  have n1 := h1.ne'
  have n2 := h2.ne'
  simp only [V, DGDP, D2GDR1DP]
  refine HasDerivAt.congr_deriv (by hd) ?_
  all_goals first | ring1 | (field_simp; done) | (field_simp; ring1)

theorem DGDP_diff (t p : ℝ) (r : Fin 2 → ℝ) (h0 : 0 < r 0) (h1 : 0 < r 1) (h2 : 0 < 1 - r 0 - r 1) :
    DifferentiableAt ℝ (fun r : Fin 2 → ℝ => DGDP t p (r 0) (r 1) (r 0) (r 1) (1 - r 0 - r 1)) r := by
  have n0 := h0.ne'
  have n1 := h1.ne'
  have n2 := h2.ne'
  simp only [V, DGDP]
  dd

theorem D2GDR0DP_d0 (t p r0 r1 : ℝ) (h0 : 0 < r0) (h1 : 0 < r1) (h2 : 0 < 1 - r0 - r1) :
    HasDerivAt (fun r0 => D2GDR0DP t p r0 r1 r0 r1 (1 - r0 - r1)) (D3GDR0R0DP t p r0 r1 r0 r1 (1 - r0 - r1)) r0 := by
  have n0 := h0.ne'
  have n1 := h1.ne'
  have n2 := h2.ne'
  simp only [D2GDR0DP, D3GDR0R0DP]
  refine HasDerivAt.congr_deriv (by hd) ?_
  all_goals first | ring1 | (field_simp; done) | (field_simp; ring1)

theorem D2GDR0DP_d1 (t p r0 r1 : ℝ) (h0 : 0 < r0) (h1 : 0 < r1) (h2 : 0 < 1 - r0 - r1) :
    HasDerivAt (fun r1 => D2GDR0DP t p r0 r1 r0 r1 (1 - r0 - r1)) (D3GDR0R1DP t p r0 r1 r0 r1 (1 - r0 - r1)) r1 := by
  have n0 := h0.ne'
  have n1 := h1.ne'
  have n2 := h2.ne'
  simp only [D2GDR0DP, D3GDR0R1DP]
  refine HasDerivAt.congr_deriv (by hd) ?_
  all_goals first | ring1 | (field_simp; done) | (field_simp; ring1)

theorem D2GDR0DP_diff (t p : ℝ) (r : Fin 2 → ℝ) (h0 : 0 < r 0) (h1 : 0 < r 1) (h2 : 0 < 1 - r 0 - r 1) :
    DifferentiableAt ℝ (fun r : Fin 2 → ℝ => D2GDR0DP t p (r 0) (r 1) (r 0) (r 1) (1 - r 0 - r 1)) r := by
  have n0 := h0.ne'
  have n1 := h1.ne'
  have n2 := h2.ne'
  simp only [D2GDR0DP]
  dd

theorem D2GDR1DP_d0 (t p r0 r1 : ℝ) (h0 : 0 < r0) (h1 : 0 < r1) (h2 : 0 < 1 - r0 - r1) :
    HasDerivAt (fun r0 => D2GDR1DP t p r0 r1 r0 r1 (1 - r0 - r1)) (D3GDR0R1DP t p r0 r1 r0 r1 (1 - r0 - r1)) r0 := by
  have n0 := h0.ne'
  have n1 := h1.ne'
  have n2 := h2.ne'
  simp only [D2GDR1DP, D3GDR0R1DP]
  refine HasDerivAt.congr_deriv (by hd) ?_
  all_goals first | ring1 | (field_simp; done) | (field_simp; ring1)

theorem D2GDR1DP_d1 (t p r0 r1 : ℝ) (h0 : 0 < r0) (h1 : 0 < r1) (h2 : 0 < 1 - r0 - r1) :
    HasDerivAt (fun r1 => D2GDR1DP t p r0 r1 r0 r1 (1 - r0 - r1)) (D3GDR1R1DP t p r0 r1 r0 r1 (1 - r0 - r1)) r1 := by
  have n0 := h0.ne'
  have n1 := h1.ne'
  have n2 := h2.ne'
  simp only [D2GDR1DP, D3GDR1R1DP]
  refine HasDerivAt.congr_deriv (by hd) ?_
  all_goals first | ring1 | (field_simp; done) | (field_simp; ring1)

theorem D2GDR1DP_diff (t p : ℝ) (r : Fin 2 → ℝ) (h0 : 0 < r 0) (h1 : 0 < r 1) (h2 : 0 < 1 - r 0 - r 1) :
    DifferentiableAt ℝ (fun r : Fin 2 → ℝ => D2GDR1DP t p (r 0) (r 1) (r 0) (r 1) (1 - r 0 - r 1)) r := by
  have n0 := h0.ne'
  have n1 := h1.ne'
  have n2 := h2.ne'
  simp only [D2GDR1DP]
  dd

set_option maxHeartbeats 1600000 in
theorem consistent_raw : (ofSites F raw).Consistent (Interior raw) := by
  have posr : ∀ r, Interior raw r → ∀ k, 0 < raw r k := fun r hr k => lt_trans eps_pos (hr k)
  constructor
  · intro t p r hr
    have pos := posr r hr
    refine grad_of_partials (G_diff t p r (pos 0) (pos 1) (pos 2)) fun j => partial_of_update ?_
    fin_cases j
    · exact (G_d0 t p (r 0) (r 1) (pos 0) (pos 1) (pos 2))
    · exact (G_d1 t p (r 0) (r 1) (pos 0) (pos 1) (pos 2))
  · intro t p r hr i
    have pos := posr r hr
    fin_cases i
    · skip
      refine grad_of_partials (DGDR0_diff t p r (pos 0) (pos 1) (pos 2)) fun j => partial_of_update ?_
      fin_cases j
      · exact (DGDR0_d0 t p (r 0) (r 1) (pos 0) (pos 1) (pos 2))
      · exact (DGDR0_d1 t p (r 0) (r 1) (pos 0) (pos 1) (pos 2))
    · skip
      refine grad_of_partials (DGDR1_diff t p r (pos 0) (pos 1) (pos 2)) fun j => partial_of_update ?_
      fin_cases j
      · exact (DGDR1_d0 t p (r 0) (r 1) (pos 0) (pos 1) (pos 2))
      · exact (DGDR1_d1 t p (r 0) (r 1) (pos 0) (pos 1) (pos 2))
  · intro t p r hr i j
    have pos := posr r hr
    fin_cases i <;> fin_cases j
    · skip
      refine grad_of_partials (D2GDR0R0_diff t p r (pos 0) (pos 1) (pos 2)) fun j => partial_of_update ?_
      fin_cases j
      · exact (D2GDR0R0_d0 t p (r 0) (r 1) (pos 0) (pos 1) (pos 2))
      · exact (D2GDR0R0_d1 t p (r 0) (r 1) (pos 0) (pos 1) (pos 2))
    · skip
      refine grad_of_partials (D2GDR0R1_diff t p r (pos 0) (pos 1) (pos 2)) fun j => partial_of_update ?_
      fin_cases j
      · exact (D2GDR0R1_d0 t p (r 0) (r 1) (pos 0) (pos 1) (pos 2))
      · exact (D2GDR0R1_d1 t p (r 0) (r 1) (pos 0) (pos 1) (pos 2))
    · skip
      refine grad_of_partials (D2GDR0R1_diff t p r (pos 0) (pos 1) (pos 2)) fun j => partial_of_update ?_
      fin_cases j
      · exact (D2GDR0R1_d0 t p (r 0) (r 1) (pos 0) (pos 1) (pos 2))
      · exact (D2GDR0R1_d1 t p (r 0) (r 1) (pos 0) (pos 1) (pos 2))
    · skip
      refine grad_of_partials (D2GDR1R1_diff t p r (pos 0) (pos 1) (pos 2)) fun j => partial_of_update ?_
      fin_cases j
      · exact (D2GDR1R1_d0 t p (r 0) (r 1) (pos 0) (pos 1) (pos 2))
      · exact (D2GDR1R1_d1 t p (r 0) (r 1) (pos 0) (pos 1) (pos 2))
  · intro t p r hr
    simp only [ofSites, F, H, S, V, G]
    refine HasDerivAt.congr_deriv (by hd) ?_
    ring
  · intro t p r hr; rfl
  · intro t p r hr
    have pos := posr r hr
    refine grad_of_partials (S_diff t p r (pos 0) (pos 1) (pos 2)) fun j => partial_of_update ?_
    fin_cases j
    · exact S_d0 t p (r 0) (r 1) (pos 0) (pos 1) (pos 2)
    · exact S_d1 t p (r 0) (r 1) (pos 0) (pos 1) (pos 2)
  · intro t p r hr i
    have pos := posr r hr
    fin_cases i
    · skip
      refine grad_of_partials ((D2GDR0DT_diff t p r (pos 0) (pos 1) (pos 2)).fun_neg) fun j => partial_of_update ?_
      fin_cases j
      · exact ((D2GDR0DT_d0 t p (r 0) (r 1) (pos 0) (pos 1) (pos 2))).fun_neg
      · exact ((D2GDR0DT_d1 t p (r 0) (r 1) (pos 0) (pos 1) (pos 2))).fun_neg
    · skip
      refine grad_of_partials ((D2GDR1DT_diff t p r (pos 0) (pos 1) (pos 2)).fun_neg) fun j => partial_of_update ?_
      fin_cases j
      · exact ((D2GDR1DT_d0 t p (r 0) (r 1) (pos 0) (pos 1) (pos 2))).fun_neg
      · exact ((D2GDR1DT_d1 t p (r 0) (r 1) (pos 0) (pos 1) (pos 2))).fun_neg
  · intro t p r hr
    simp only [ofSites, F, H, S, V, G, D2GDT2]
    refine HasDerivAt.congr_deriv (by hd) ?_
    ring
  · intro t p r hr
    simp only [ofSites, F, D2GDT2, D3GDT3]
    refine HasDerivAt.congr_deriv (by hd) ?_
    ring
  · intro t p r hr
    refine grad_of_partials ?_ fun j => partial_of_update ?_
    · simp only [ofSites, F, D2GDT2]; dd
    · fin_cases j
      · change HasDerivAt (fun _ : ℝ => -t * (0 : ℝ)) (-t * (0 : ℝ)) _
        exact (hasDerivAt_const _ _).congr_deriv (by ring)
      · change HasDerivAt (fun _ : ℝ => -t * (0 : ℝ)) (-t * (0 : ℝ)) _
        exact (hasDerivAt_const _ _).congr_deriv (by ring)
  · intro t p r hr
    simp only [ofSites, F, H, S, V, G, DGDP]
    refine HasDerivAt.congr_deriv (by hd) ?_
    ring
  · intro t p r hr
    have pos := posr r hr
    refine grad_of_partials (DGDP_diff t p r (pos 0) (pos 1) (pos 2)) fun j => partial_of_update ?_
    fin_cases j
    · exact (DGDP_d0 t p (r 0) (r 1) (pos 0) (pos 1) (pos 2))
    · exact (DGDP_d1 t p (r 0) (r 1) (pos 0) (pos 1) (pos 2))
  · intro t p r hr i
    have pos := posr r hr
    fin_cases i
    · skip
      refine grad_of_partials (D2GDR0DP_diff t p r (pos 0) (pos 1) (pos 2)) fun j => partial_of_update ?_
      fin_cases j
      · exact (D2GDR0DP_d0 t p (r 0) (r 1) (pos 0) (pos 1) (pos 2))
      · exact (D2GDR0DP_d1 t p (r 0) (r 1) (pos 0) (pos 1) (pos 2))
    · skip
      refine grad_of_partials (D2GDR1DP_diff t p r (pos 0) (pos 1) (pos 2)) fun j => partial_of_update ?_
      fin_cases j
      · exact (D2GDR1DP_d0 t p (r 0) (r 1) (pos 0) (pos 1) (pos 2))
      · exact (D2GDR1DP_d1 t p (r 0) (r 1) (pos 0) (pos 1) (pos 2))
  · intro t p r hr
    simp only [ofSites, F, V, DGDP, D2GDTDP]
    refine HasDerivAt.congr_deriv (by hd) ?_
    ring
  · intro t p r hr
    simp only [ofSites, F, V, DGDP, D2GDP2]
    refine HasDerivAt.congr_deriv (by hd) ?_
    ring
  · intro t p r hr
    simp only [ofSites, F, D2GDTDP, D3GDT2DP]
    refine HasDerivAt.congr_deriv (by hd) ?_
    ring
  · intro t p r hr
    simp only [ofSites, F, D2GDTDP, D3GDTDP2]
    refine HasDerivAt.congr_deriv (by hd) ?_
    ring
  · intro t p r hr
    simp only [ofSites, F, D2GDP2, D3GDP3]
    refine HasDerivAt.congr_deriv (by hd) ?_
    ring
  · intro t p r hr i
    fin_cases i
    · change HasDerivAt (fun t => D2GDR0DP t p (r 0) (r 1) (raw r 0) (raw r 1) (raw r 2)) (D3GDR0DTDP t p (r 0) (r 1) (raw r 0) (raw r 1) (raw r 2)) t
      simp only [D2GDR0DP, D3GDR0DTDP]
      refine HasDerivAt.congr_deriv (by hd) ?_
      ring
    · change HasDerivAt (fun t => D2GDR1DP t p (r 0) (r 1) (raw r 0) (raw r 1) (raw r 2)) (D3GDR1DTDP t p (r 0) (r 1) (raw r 0) (raw r 1) (raw r 2)) t
      simp only [D2GDR1DP, D3GDR1DTDP]
      refine HasDerivAt.congr_deriv (by hd) ?_
      ring
  · intro t p r hr i
    fin_cases i
    · change HasDerivAt (fun p => D2GDR0DP t p (r 0) (r 1) (raw r 0) (raw r 1) (raw r 2)) (D3GDR0DP2 t p (r 0) (r 1) (raw r 0) (raw r 1) (raw r 2)) p
      simp only [D2GDR0DP, D3GDR0DP2]
      refine HasDerivAt.congr_deriv (by hd) ?_
      ring
    · change HasDerivAt (fun p => D2GDR1DP t p (r 0) (r 1) (raw r 0) (raw r 1) (raw r 2)) (D3GDR1DP2 t p (r 0) (r 1) (raw r 0) (raw r 1) (raw r 2)) p
      simp only [D2GDR1DP, D3GDR1DP2]
      refine HasDerivAt.congr_deriv (by hd) ?_
      ring
  · intro t p r hr i
    fin_cases i
    · change HasDerivAt (fun t => DGDR0 t p (r 0) (r 1) (raw r 0) (raw r 1) (raw r 2)) (-(-(D2GDR0DT t p (r 0) (r 1) (raw r 0) (raw r 1) (raw r 2)))) t
      simp only [DGDR0, D2GDR0DT]
      refine HasDerivAt.congr_deriv (by hd) ?_
      ring
    · change HasDerivAt (fun t => DGDR1 t p (r 0) (r 1) (raw r 0) (raw r 1) (raw r 2)) (-(-(D2GDR1DT t p (r 0) (r 1) (raw r 0) (raw r 1) (raw r 2)))) t
      simp only [DGDR1, D2GDR1DT]
      refine HasDerivAt.congr_deriv (by hd) ?_
      ring
  · intro t p r hr i
    fin_cases i
    · change HasDerivAt (fun p => DGDR0 t p (r 0) (r 1) (raw r 0) (raw r 1) (raw r 2)) (D2GDR0DP t p (r 0) (r 1) (raw r 0) (raw r 1) (raw r 2)) p
      simp only [DGDR0, D2GDR0DP]
      refine HasDerivAt.congr_deriv (by hd) ?_
      ring
    · change HasDerivAt (fun p => DGDR1 t p (r 0) (r 1) (raw r 0) (raw r 1) (raw r 2)) (D2GDR1DP t p (r 0) (r 1) (raw r 0) (raw r 1) (raw r 2)) p
      simp only [DGDR1, D2GDR1DP]
      refine HasDerivAt.congr_deriv (by hd) ?_
      ring
  · intro t p r hr h0 i
    fin_cases i
    · change HasDerivAt (fun t => -(D2GDR0DT t p (r 0) (r 1) (raw r 0) (raw r 1) (raw r 2))) (-t * (D3GDR0DT2 t p (r 0) (r 1) (raw r 0) (raw r 1) (raw r 2)) / t) t
      simp only [D2GDR0DT, D3GDR0DT2]
      refine HasDerivAt.congr_deriv (by hd) ?_
      first | ring | (field_simp; ring)
    · change HasDerivAt (fun t => -(D2GDR1DT t p (r 0) (r 1) (raw r 0) (raw r 1) (raw r 2))) (-t * (D3GDR1DT2 t p (r 0) (r 1) (raw r 0) (raw r 1) (raw r 2)) / t) t
      simp only [D2GDR1DT, D3GDR1DT2]
      refine HasDerivAt.congr_deriv (by hd) ?_
      first | ring | (field_simp; ring)
  · intro t p r hr
    refine grad_of_partials ?_ fun j => partial_of_update ?_
    · simp only [ofSites, F, D2GDP2]; dd
    · fin_cases j
      · change HasDerivAt (fun _ : ℝ => (0 : ℝ)) (0 : ℝ) _
        exact hasDerivAt_const _ _
      · change HasDerivAt (fun _ : ℝ => (0 : ℝ)) (0 : ℝ) _
        exact hasDerivAt_const _ _
  · intro t p r hr i j; fin_cases i <;> fin_cases j <;> rfl
  · intro t p r hr i j k; fin_cases i <;> fin_cases j <;> fin_cases k <;> exact ⟨rfl, rfl⟩
  · intro r hr; funext i; fin_cases i <;> rfl

theorem raw_continuous (k : Fin 3) : Continuous fun r => raw r k := by
  fin_cases k
  · change Continuous fun r : Fin 2 → ℝ => r 0
    fun_prop
  · change Continuous fun r : Fin 2 → ℝ => r 1
    fun_prop
  · change Continuous fun r : Fin 2 → ℝ => 1 - r 0 - r 1
    fun_prop

theorem consistent : mix.Consistent (Interior raw) := consistent_clamp F raw raw_continuous consistent_raw

/-- The dependent end member of feldspar.c. -/
def dep : Fin 3 := 2

end Feldspar

/-- **C24.** Feldspar (feldspar.c): derivatives, entropy, enthalpy, heat capacity and volume of mixing fit together. -/
theorem C24_feldspar : Feldspar.mix.Consistent (Interior Feldspar.raw) := Feldspar.consistent

/-- The interior contains the composition 1 / 4, 1 / 4. -/
example : Interior Feldspar.raw ![1 / 4, 1 / 4] := by
  intro k
  fin_cases k
  · change ((1 / 4) : ℝ) > eps; unfold eps; norm_num
  · change ((1 / 4) : ℝ) > eps; unfold eps; norm_num
  · change (1 - (1 / 4) - (1 / 4) : ℝ) > eps; unfold eps; norm_num

/-- **C24.** The chemical potentials `act*` returns are the derivatives of the total Gibbs energy of mixing. -/
theorem C24_feldspar_potentials (t p : ℝ) (m : Fin 3 → ℝ) (h0 : ∑ i, m i ≠ 0)
    (hr : Interior Feldspar.raw (toR Feldspar.dep m)) (i : Fin 3) :
    Partial (fun m => (∑ i, m i) * Feldspar.mix.g t p (toR Feldspar.dep m)) m i
      (mu Feldspar.mix Feldspar.dep t p (toR Feldspar.dep m) i) :=
  C24_potential_is_derivative _ _ Feldspar.consistent _ t p m h0 hr i

/-- **C24.** The derivatives of the activities `act*` returns are their derivatives. -/
theorem C24_feldspar_activities (t p : ℝ) (r : Fin 2 → ℝ) (hr : Interior Feldspar.raw r) (i : Fin 3)
    (k : Fin 2) : Partial (fun r => act Feldspar.mix Feldspar.dep t p r i) r k (dact Feldspar.mix Feldspar.dep t p r i k) :=
  C24_activity_derivative _ _ Feldspar.consistent (isOpen_interior _ Feldspar.raw_continuous) _ t p r hr i k

end

end Magma.Thermo.Mixing
