import Verif.Thermo.OrderTables

/-!
Albite. Generated by /verif/tools/gen/genord.py from the macros of /repo/sources/albite.c: one definition per macro, with the
macros it mentions as definitions (the generator checks that this has the value of C's textual substitution).
-/

namespace Verif.Thermo.Ordering

open Magma.Thermo.Mixing (R)

noncomputable section

set_option linter.unusedVariables false
set_option linter.unnecessarySeqFocus false
set_option linter.unusedSimpArgs false
set_option linter.unusedTactic false
set_option linter.unreachableTactic false

namespace Albite

/-- `a0`, albite.c 84. -/
def a0 : ℝ :=
  (5479 / 1000)

/-- `aod0`, albite.c 86. -/
def aod0 : ℝ :=
  (2081 / 50)

/-- `d1`, albite.c 90. -/
def d1 : ℝ :=
  -(3043 / 1000)

/-- `d2`, albite.c 91. -/
def d2 : ℝ :=
  -(1569 / 1000000)

/-- `d3`, albite.c 92. -/
def d3 : ℝ :=
  (2109 / 1000000000)

/-- `S`, albite.c 238-239. -/
def S (t s0 s1 : ℝ) : ℝ :=
  -((1 / 2) * a0 * s0 * s0 + (1 / 2) * aod0 * s1 * s1 + (d1 + 2 * d2 * t + 3 * d3 * t * t) * s0 * s1)

/-- `tc`, albite.c 93. -/
def tc : ℝ :=
  1251

/-- `b`, albite.c 85. -/
def b : ℝ :=
  6854

/-- `tod`, albite.c 94. -/
def tod : ℝ :=
  (8241 / 10)

/-- `bod`, albite.c 87. -/
def bod : ℝ :=
  -9301

/-- `cod`, albite.c 88. -/
def cod : ℝ :=
  43600

/-- `d0`, albite.c 89. -/
def d0 : ℝ :=
  -(2171 / 1000)

/-- `H`, albite.c 240-243. -/
def H (t s0 s1 : ℝ) : ℝ :=
  (-(1 / 2)) * a0 * tc * s0 * s0 + (1 / 4) * b * s0 * s0 * s0 * s0 - (1 / 2) * aod0 * tod * s1 * s1 + (1 / 4)
    * bod * s1 * s1 * s1 * s1 + cod / 6 * s1 * s1 * s1 * s1 * s1 * s1 + (d0 - d2 * t * t - 2 * d3 * t * t * t) *
    s0 * s1

/-- `V`, albite.c 244. -/
def V (t s0 s1 : ℝ) : ℝ :=
  (H t s0 s1) / (13411317 / 40)

/-- `G`, albite.c 245. -/
def G (t p s0 s1 : ℝ) : ℝ :=
  H t s0 s1 - t * (S t s0 s1) + (p - 1) * (V t s0 s1)

/-- `DGDS0`, albite.c 249-251. -/
def DGDS0 (t p s0 s1 : ℝ) : ℝ :=
  ((-a0) * tc * s0 + b * s0 * s0 * s0 + (d0 - d2 * t * t - 2 * d3 * t * t * t) * s1) * (1 + (p - 1) /
    (13411317 / 40)) + t * (a0 * s0 + (d1 + 2 * d2 * t + 3 * d3 * t * t) * s1)

/-- `DGDS1`, albite.c 252-255. -/
def DGDS1 (t p s0 s1 : ℝ) : ℝ :=
  ((-aod0) * tod * s1 + bod * s1 * s1 * s1 + cod * s1 * s1 * s1 * s1 * s1 + (d0 - d2 * t * t - 2 * d3 * t * t
    * t) * s0) * (1 + (p - 1) / (13411317 / 40)) + t * (aod0 * s1 + (d1 + 2 * d2 * t + 3 * d3 * t * t) * s0)

/-- `DGDT`, albite.c 256. -/
def DGDT (t p s0 s1 : ℝ) : ℝ :=
  -(S t s0 s1) + ((-2) * d2 * t - 6 * d3 * t * t) * s0 * s1 * (p - 1) / (13411317 / 40)

/-- `DGDP`, albite.c 257. -/
def DGDP (t s0 s1 : ℝ) : ℝ :=
  V t s0 s1

/-- `D2GDS0S0`, albite.c 261. -/
def D2GDS0S0 (t p s0 : ℝ) : ℝ :=
  ((-a0) * tc + 3 * b * s0 * s0) * (1 + (p - 1) / (13411317 / 40)) + t * a0

/-- `D2GDS0S1`, albite.c 262-263. -/
def D2GDS0S1 (t p : ℝ) : ℝ :=
  (d0 - d2 * t * t - 2 * d3 * t * t * t) * (1 + (p - 1) / (13411317 / 40)) + t * (d1 + 2 * d2 * t + 3 * d3 * t
    * t)

/-- `D2GDS0DT`, albite.c 264-265. -/
def D2GDS0DT (t p s0 s1 : ℝ) : ℝ :=
  (-2) * (d2 * t + 3 * d3 * t * t) * s1 * (p - 1) / (13411317 / 40) + a0 * s0 + (d1 + 2 * d2 * t + 3 * d3 * t
    * t) * s1

/-- `D2GDS0DP`, albite.c 266-267. -/
def D2GDS0DP (t s0 s1 : ℝ) : ℝ :=
  ((-a0) * tc * s0 + b * s0 * s0 * s0 + (d0 - d2 * t * t - 2 * d3 * t * t * t) * s1) / (13411317 / 40)

/-- `D2GDS1S1`, albite.c 269-270. -/
def D2GDS1S1 (t p s1 : ℝ) : ℝ :=
  ((-aod0) * tod + 3 * bod * s1 * s1 + 5 * cod * s1 * s1 * s1 * s1) * (1 + (p - 1) / (13411317 / 40)) + t *
    aod0

/-- `D2GDS1DT`, albite.c 271-272. -/
def D2GDS1DT (t p s0 s1 : ℝ) : ℝ :=
  (-2) * (d2 * t + 3 * d3 * t * t) * s0 * (p - 1) / (13411317 / 40) + aod0 * s1 + (d1 + 2 * d2 * t + 3 * d3 *
    t * t) * s0

/-- `D2GDS1DP`, albite.c 273-275. -/
def D2GDS1DP (t s0 s1 : ℝ) : ℝ :=
  ((-aod0) * tod * s1 + bod * s1 * s1 * s1 + cod * s1 * s1 * s1 * s1 * s1 + (d0 - d2 * t * t - 2 * d3 * t * t
    * t) * s0) / (13411317 / 40)

/-- `D2GDT2`, albite.c 277-278. -/
def D2GDT2 (t p s0 s1 : ℝ) : ℝ :=
  (-2) * (d2 + 6 * d3 * t) * s0 * s1 * (p - 1) / (13411317 / 40) + (2 * d2 + 6 * d3 * t) * s0 * s1

/-- `D2GDTDP`, albite.c 279. -/
def D2GDTDP (t s0 s1 : ℝ) : ℝ :=
  (-2) * (d2 * t + 3 * d3 * t * t) * s0 * s1 / (13411317 / 40)

/-- `D2GDP2`, albite.c 280. -/
def D2GDP2 : ℝ :=
  0

/-- `D3GDS0S0S0`, albite.c 284. -/
def D3GDS0S0S0 (p s0 : ℝ) : ℝ :=
  6 * b * s0 * (1 + (p - 1) / (13411317 / 40))

/-- `D3GDS0S0S1`, albite.c 285. -/
def D3GDS0S0S1 : ℝ :=
  0

/-- `D3GDS0S0DT`, albite.c 286. -/
def D3GDS0S0DT : ℝ :=
  a0

/-- `D3GDS0S0DP`, albite.c 287. -/
def D3GDS0S0DP (s0 : ℝ) : ℝ :=
  ((-a0) * tc + 3 * b * s0 * s0) / (13411317 / 40)

/-- `D3GDS0S1S1`, albite.c 288. -/
def D3GDS0S1S1 : ℝ :=
  0

/-- `D3GDS0S1DT`, albite.c 289-290. -/
def D3GDS0S1DT (t p : ℝ) : ℝ :=
  ((-2) * d2 * t - 6 * d3 * t * t) * (1 + (p - 1) / (13411317 / 40)) + d1 + 2 * d2 * t + 3 * d3 * t * t + t *
    (2 * d2 + 6 * d3 * t)

/-- `D3GDS0S1DP`, albite.c 291. -/
def D3GDS0S1DP (t : ℝ) : ℝ :=
  (d0 - d2 * t * t - 2 * d3 * t * t * t) / (13411317 / 40)

/-- `D3GDS0DT2`, albite.c 292-293. -/
def D3GDS0DT2 (t p s1 : ℝ) : ℝ :=
  (-2) * (d2 + 6 * d3 * t) * s1 * (p - 1) / (13411317 / 40) + (2 * d2 + 6 * d3 * t) * s1

/-- `D3GDS0DTDP`, albite.c 294. -/
def D3GDS0DTDP (t s1 : ℝ) : ℝ :=
  (-2) * (d2 * t + 3 * d3 * t * t) * s1 / (13411317 / 40)

/-- `D3GDS0DP2`, albite.c 295. -/
def D3GDS0DP2 : ℝ :=
  0

/-- `D3GDS1S1S1`, albite.c 297-298. -/
def D3GDS1S1S1 (p s1 : ℝ) : ℝ :=
  (6 * bod * s1 + 20 * cod * s1 * s1 * s1) * (1 + (p - 1) / (13411317 / 40))

/-- `D3GDS1S1DT`, albite.c 299. -/
def D3GDS1S1DT : ℝ :=
  aod0

/-- `D3GDS1S1DP`, albite.c 300-301. -/
def D3GDS1S1DP (s1 : ℝ) : ℝ :=
  ((-aod0) * tod + 3 * bod * s1 * s1 + 5 * cod * s1 * s1 * s1 * s1) / (13411317 / 40)

/-- `D3GDS1DT2`, albite.c 302-303. -/
def D3GDS1DT2 (t p s0 : ℝ) : ℝ :=
  (-2) * (d2 + 6 * d3 * t) * s0 * (p - 1) / (13411317 / 40) + (2 * d2 + 6 * d3 * t) * s0

/-- `D3GDS1DTDP`, albite.c 304. -/
def D3GDS1DTDP (t s0 : ℝ) : ℝ :=
  (-2) * (d2 * t + 3 * d3 * t * t) * s0 / (13411317 / 40)

/-- `D3GDS1DP2`, albite.c 305. -/
def D3GDS1DP2 : ℝ :=
  0

/-- `D3GDT3`, albite.c 307. -/
def D3GDT3 (p s0 s1 : ℝ) : ℝ :=
  (-12) * d3 * s0 * s1 * (p - 1) / (13411317 / 40) + 6 * d3 * s0 * s1

/-- `D3GDT2DP`, albite.c 308. -/
def D3GDT2DP (t s0 s1 : ℝ) : ℝ :=
  (-2) * (d2 + 6 * d3 * t) * s0 * s1 / (13411317 / 40)

/-- `D3GDTDP2`, albite.c 309. -/
def D3GDTDP2 : ℝ :=
  0

/-- `D3GDP3`, albite.c 310. -/
def D3GDP3 : ℝ :=
  0

/-- The arrays as the functions of albite.c fill them (lines 312-343), for site fractions `x` and variables `y`. -/
def tables (x : Fin 0 → ℝ) (y : Var 0 2 → ℝ) : Tables 0 2 where
g := G (y (.inl iT)) (y (.inl iP)) (y (.inr 0)) (y (.inr 1))
s := -(DGDT (y (.inl iT)) (y (.inl iP)) (y (.inr 0)) (y (.inr 1)))
dgdr := ![]
dgds := ![DGDS0 (y (.inl iT)) (y (.inl iP)) (y (.inr 0)) (y (.inr 1)), DGDS1 (y (.inl iT)) (y (.inl iP)) (y
    (.inr 0)) (y (.inr 1))]
dgdt := DGDT (y (.inl iT)) (y (.inl iP)) (y (.inr 0)) (y (.inr 1))
dgdp := DGDP (y (.inl iT)) (y (.inr 0)) (y (.inr 1))
d2gdt2 := D2GDT2 (y (.inl iT)) (y (.inl iP)) (y (.inr 0)) (y (.inr 1))
d2gdtdp := D2GDTDP (y (.inl iT)) (y (.inr 0)) (y (.inr 1))
d2gdp2 := D2GDP2
d3gdt3 := D3GDT3 (y (.inl iP)) (y (.inr 0)) (y (.inr 1))
d3gdt2dp := D3GDT2DP (y (.inl iT)) (y (.inr 0)) (y (.inr 1))
d3gdtdp2 := D3GDTDP2
d3gdp3 := D3GDP3
d2gdr2 := ![]
d2gdrds := ![]
d2gdrdt := ![]
d2gdrdp := ![]
d2gds2 := ![![D2GDS0S0 (y (.inl iT)) (y (.inl iP)) (y (.inr 0)), D2GDS0S1 (y (.inl iT)) (y (.inl iP))],
    ![D2GDS0S1 (y (.inl iT)) (y (.inl iP)), D2GDS1S1 (y (.inl iT)) (y (.inl iP)) (y (.inr 1))]]
d2gdsdt := ![D2GDS0DT (y (.inl iT)) (y (.inl iP)) (y (.inr 0)) (y (.inr 1)), D2GDS1DT (y (.inl iT)) (y (.inl
    iP)) (y (.inr 0)) (y (.inr 1))]
d2gdsdp := ![D2GDS0DP (y (.inl iT)) (y (.inr 0)) (y (.inr 1)), D2GDS1DP (y (.inl iT)) (y (.inr 0)) (y (.inr
    1))]
d3gdr3 := ![]
d3gdr2ds := ![]
d3gdr2dt := ![]
d3gdr2dp := ![]
d3gdrds2 := ![]
d3gdrdsdt := ![]
d3gdrdsdp := ![]
d3gdrdt2 := ![]
d3gdrdtdp := ![]
d3gdrdp2 := ![]
d3gds3 := ![![![D3GDS0S0S0 (y (.inl iP)) (y (.inr 0)), D3GDS0S0S1], ![D3GDS0S0S1, D3GDS0S1S1]],
    ![![D3GDS0S0S1, D3GDS0S1S1], ![D3GDS0S1S1, D3GDS1S1S1 (y (.inl iP)) (y (.inr 1))]]]
d3gds2dt := ![![D3GDS0S0DT, D3GDS0S1DT (y (.inl iT)) (y (.inl iP))], ![D3GDS0S1DT (y (.inl iT)) (y (.inl
    iP)), D3GDS1S1DT]]
d3gds2dp := ![![D3GDS0S0DP (y (.inr 0)), D3GDS0S1DP (y (.inl iT))], ![D3GDS0S1DP (y (.inl iT)), D3GDS1S1DP
    (y (.inr 1))]]
d3gdsdt2 := ![D3GDS0DT2 (y (.inl iT)) (y (.inl iP)) (y (.inr 1)), D3GDS1DT2 (y (.inl iT)) (y (.inl iP)) (y
    (.inr 0))]
d3gdsdtdp := ![D3GDS0DTDP (y (.inl iT)) (y (.inr 1)), D3GDS1DTDP (y (.inl iT)) (y (.inr 0))]
d3gdsdp2 := ![D3GDS0DP2, D3GDS1DP2]

/-- Site fractions before they are kept inside their bounds, albite.c. -/
def raw (y : Var 0 2 → ℝ) : Fin 0 → ℝ :=
  ![]

/-- Bounds applied to the site fractions, albite.c. -/
def site (y : Var 0 2 → ℝ) : Fin 0 → ℝ :=
  ![]

/-- The macros of albite.c at given composition, conditions and ordering state. -/
def macros (y : Var 0 2 → ℝ) : Tables 0 2 := tables (site y) y

/-- Where no bound on the site fractions is active. -/
def Dom (y : Var 0 2 → ℝ) : Prop :=
  True

lemma hl (y u : Var 0 2 → ℝ) (i : Var 0 2) : HasDerivAt (fun v : ℝ => y i + v * u i) (u i) 0 := by
  simpa using ((hasDerivAt_id' (0 : ℝ)).mul_const (u i)).const_add (y i)

lemma pos (y : Var 0 2 → ℝ) (hy : Dom y) :
    True := by
  trivial

lemma c_G {t p s0 s1 : ℝ → ℝ} {v dt dp ds0 ds1 : ℝ} (ht : HasDerivAt t dt v) (hp : HasDerivAt p dp v) (hs0 :
    HasDerivAt s0 ds0 v) (hs1 : HasDerivAt s1 ds1 v) :
    HasDerivAt (fun v => G (t v) (p v) (s0 v) (s1 v))
    ((0) + ((DGDT (t v) (p v) (s0 v) (s1 v)) * dt + (DGDP (t v) (s0 v) (s1 v)) * dp) + ((DGDS0 (t v) (p v) (s0 v)
    (s1 v)) * ds0 + (DGDS1 (t v) (p v) (s0 v) (s1 v)) * ds1)) v := by
  try simp only [H, S, V, G, DGDT, DGDP, DGDS0, DGDS1, zero_mul, mul_zero, add_zero, zero_add, sub_zero]
  refine HasDerivAt.congr_deriv (by hdo) ?_
  ring

lemma c_DGDS0 {t p s0 s1 : ℝ → ℝ} {v dt dp ds0 ds1 : ℝ} (ht : HasDerivAt t dt v) (hp : HasDerivAt p dp v) (hs0 :
    HasDerivAt s0 ds0 v) (hs1 : HasDerivAt s1 ds1 v) :
    HasDerivAt (fun v => DGDS0 (t v) (p v) (s0 v) (s1 v))
    ((0) + ((D2GDS0DT (t v) (p v) (s0 v) (s1 v)) * dt + (D2GDS0DP (t v) (s0 v) (s1 v)) * dp) + ((D2GDS0S0 (t v)
    (p v) (s0 v)) * ds0 + (D2GDS0S1 (t v) (p v)) * ds1)) v := by
  try simp only [DGDS0, D2GDS0DT, D2GDS0DP, D2GDS0S0, D2GDS0S1, zero_mul, mul_zero, add_zero, zero_add, sub_zero]
  refine HasDerivAt.congr_deriv (by hdo) ?_
  ring

lemma c_DGDS1 {t p s0 s1 : ℝ → ℝ} {v dt dp ds0 ds1 : ℝ} (ht : HasDerivAt t dt v) (hp : HasDerivAt p dp v) (hs0 :
    HasDerivAt s0 ds0 v) (hs1 : HasDerivAt s1 ds1 v) :
    HasDerivAt (fun v => DGDS1 (t v) (p v) (s0 v) (s1 v))
    ((0) + ((D2GDS1DT (t v) (p v) (s0 v) (s1 v)) * dt + (D2GDS1DP (t v) (s0 v) (s1 v)) * dp) + ((D2GDS0S1 (t v)
    (p v)) * ds0 + (D2GDS1S1 (t v) (p v) (s1 v)) * ds1)) v := by
  try simp only [DGDS1, D2GDS1DT, D2GDS1DP, D2GDS0S1, D2GDS1S1, zero_mul, mul_zero, add_zero, zero_add, sub_zero]
  refine HasDerivAt.congr_deriv (by hdo) ?_
  ring

lemma c_DGDT {t p s0 s1 : ℝ → ℝ} {v dt dp ds0 ds1 : ℝ} (ht : HasDerivAt t dt v) (hp : HasDerivAt p dp v) (hs0 :
    HasDerivAt s0 ds0 v) (hs1 : HasDerivAt s1 ds1 v) :
    HasDerivAt (fun v => DGDT (t v) (p v) (s0 v) (s1 v))
    ((0) + ((D2GDT2 (t v) (p v) (s0 v) (s1 v)) * dt + (D2GDTDP (t v) (s0 v) (s1 v)) * dp) + ((D2GDS0DT (t v) (p
    v) (s0 v) (s1 v)) * ds0 + (D2GDS1DT (t v) (p v) (s0 v) (s1 v)) * ds1)) v := by
  try simp only [S, DGDT, D2GDT2, D2GDTDP, D2GDS0DT, D2GDS1DT, zero_mul, mul_zero, add_zero, zero_add, sub_zero]
  refine HasDerivAt.congr_deriv (by hdo) ?_
  ring

lemma c_DGDP {t p s0 s1 : ℝ → ℝ} {v dt dp ds0 ds1 : ℝ} (ht : HasDerivAt t dt v) (hp : HasDerivAt p dp v) (hs0 :
    HasDerivAt s0 ds0 v) (hs1 : HasDerivAt s1 ds1 v) :
    HasDerivAt (fun v => DGDP (t v) (s0 v) (s1 v))
    ((0) + ((D2GDTDP (t v) (s0 v) (s1 v)) * dt + D2GDP2 * dp) + ((D2GDS0DP (t v) (s0 v) (s1 v)) * ds0 + (D2GDS1DP
    (t v) (s0 v) (s1 v)) * ds1)) v := by
  try simp only [H, V, DGDP, D2GDTDP, D2GDP2, D2GDS0DP, D2GDS1DP, zero_mul, mul_zero, add_zero, zero_add, sub_zero]
  refine HasDerivAt.congr_deriv (by hdo) ?_
  ring

lemma c_D2GDS0S0 {t p s0 s1 : ℝ → ℝ} {v dt dp ds0 ds1 : ℝ} (ht : HasDerivAt t dt v) (hp : HasDerivAt p dp v) (hs0 :
    HasDerivAt s0 ds0 v) (hs1 : HasDerivAt s1 ds1 v) :
    HasDerivAt (fun v => D2GDS0S0 (t v) (p v) (s0 v))
    ((0) + (D3GDS0S0DT * dt + (D3GDS0S0DP (s0 v)) * dp) + ((D3GDS0S0S0 (p v) (s0 v)) * ds0 + D3GDS0S0S1 * ds1)) v := by
  try simp only [D2GDS0S0, D3GDS0S0DT, D3GDS0S0DP, D3GDS0S0S0, D3GDS0S0S1, zero_mul, mul_zero, add_zero, zero_add, sub_zero]
  refine HasDerivAt.congr_deriv (by hdo) ?_
  ring

lemma c_D2GDS0S1 {t p s0 s1 : ℝ → ℝ} {v dt dp ds0 ds1 : ℝ} (ht : HasDerivAt t dt v) (hp : HasDerivAt p dp v) (hs0 :
    HasDerivAt s0 ds0 v) (hs1 : HasDerivAt s1 ds1 v) :
    HasDerivAt (fun v => D2GDS0S1 (t v) (p v))
    ((0) + ((D3GDS0S1DT (t v) (p v)) * dt + (D3GDS0S1DP (t v)) * dp) + (D3GDS0S0S1 * ds0 + D3GDS0S1S1 * ds1)) v := by
  try simp only [D2GDS0S1, D3GDS0S1DT, D3GDS0S1DP, D3GDS0S0S1, D3GDS0S1S1, zero_mul, mul_zero, add_zero, zero_add, sub_zero]
  refine HasDerivAt.congr_deriv (by hdo) ?_
  ring

lemma c_D2GDS0DT {t p s0 s1 : ℝ → ℝ} {v dt dp ds0 ds1 : ℝ} (ht : HasDerivAt t dt v) (hp : HasDerivAt p dp v) (hs0 :
    HasDerivAt s0 ds0 v) (hs1 : HasDerivAt s1 ds1 v) :
    HasDerivAt (fun v => D2GDS0DT (t v) (p v) (s0 v) (s1 v))
    ((0) + ((D3GDS0DT2 (t v) (p v) (s1 v)) * dt + (D3GDS0DTDP (t v) (s1 v)) * dp) + (D3GDS0S0DT * ds0 +
    (D3GDS0S1DT (t v) (p v)) * ds1)) v := by
  try simp only [D2GDS0DT, D3GDS0DT2, D3GDS0DTDP, D3GDS0S0DT, D3GDS0S1DT, zero_mul, mul_zero, add_zero, zero_add, sub_zero]
  refine HasDerivAt.congr_deriv (by hdo) ?_
  ring

lemma c_D2GDS0DP {t p s0 s1 : ℝ → ℝ} {v dt dp ds0 ds1 : ℝ} (ht : HasDerivAt t dt v) (hp : HasDerivAt p dp v) (hs0 :
    HasDerivAt s0 ds0 v) (hs1 : HasDerivAt s1 ds1 v) :
    HasDerivAt (fun v => D2GDS0DP (t v) (s0 v) (s1 v))
    ((0) + ((D3GDS0DTDP (t v) (s1 v)) * dt + D3GDS0DP2 * dp) + ((D3GDS0S0DP (s0 v)) * ds0 + (D3GDS0S1DP (t v)) *
    ds1)) v := by
  try simp only [D2GDS0DP, D3GDS0DTDP, D3GDS0DP2, D3GDS0S0DP, D3GDS0S1DP, zero_mul, mul_zero, add_zero, zero_add, sub_zero]
  refine HasDerivAt.congr_deriv (by hdo) ?_
  ring

lemma c_D2GDS1S1 {t p s0 s1 : ℝ → ℝ} {v dt dp ds0 ds1 : ℝ} (ht : HasDerivAt t dt v) (hp : HasDerivAt p dp v) (hs0 :
    HasDerivAt s0 ds0 v) (hs1 : HasDerivAt s1 ds1 v) :
    HasDerivAt (fun v => D2GDS1S1 (t v) (p v) (s1 v))
    ((0) + (D3GDS1S1DT * dt + (D3GDS1S1DP (s1 v)) * dp) + (D3GDS0S1S1 * ds0 + (D3GDS1S1S1 (p v) (s1 v)) * ds1)) v := by
  try simp only [D2GDS1S1, D3GDS1S1DT, D3GDS1S1DP, D3GDS0S1S1, D3GDS1S1S1, zero_mul, mul_zero, add_zero, zero_add, sub_zero]
  refine HasDerivAt.congr_deriv (by hdo) ?_
  ring

lemma c_D2GDS1DT {t p s0 s1 : ℝ → ℝ} {v dt dp ds0 ds1 : ℝ} (ht : HasDerivAt t dt v) (hp : HasDerivAt p dp v) (hs0 :
    HasDerivAt s0 ds0 v) (hs1 : HasDerivAt s1 ds1 v) :
    HasDerivAt (fun v => D2GDS1DT (t v) (p v) (s0 v) (s1 v))
    ((0) + ((D3GDS1DT2 (t v) (p v) (s0 v)) * dt + (D3GDS1DTDP (t v) (s0 v)) * dp) + ((D3GDS0S1DT (t v) (p v)) *
    ds0 + D3GDS1S1DT * ds1)) v := by
  try simp only [D2GDS1DT, D3GDS1DT2, D3GDS1DTDP, D3GDS0S1DT, D3GDS1S1DT, zero_mul, mul_zero, add_zero, zero_add, sub_zero]
  refine HasDerivAt.congr_deriv (by hdo) ?_
  ring

lemma c_D2GDS1DP {t p s0 s1 : ℝ → ℝ} {v dt dp ds0 ds1 : ℝ} (ht : HasDerivAt t dt v) (hp : HasDerivAt p dp v) (hs0 :
    HasDerivAt s0 ds0 v) (hs1 : HasDerivAt s1 ds1 v) :
    HasDerivAt (fun v => D2GDS1DP (t v) (s0 v) (s1 v))
    ((0) + ((D3GDS1DTDP (t v) (s0 v)) * dt + D3GDS1DP2 * dp) + ((D3GDS0S1DP (t v)) * ds0 + (D3GDS1S1DP (s1 v)) *
    ds1)) v := by
  try simp only [D2GDS1DP, D3GDS1DTDP, D3GDS1DP2, D3GDS0S1DP, D3GDS1S1DP, zero_mul, mul_zero, add_zero, zero_add, sub_zero]
  refine HasDerivAt.congr_deriv (by hdo) ?_
  ring

lemma c_D2GDT2 {t p s0 s1 : ℝ → ℝ} {v dt dp ds0 ds1 : ℝ} (ht : HasDerivAt t dt v) (hp : HasDerivAt p dp v) (hs0 :
    HasDerivAt s0 ds0 v) (hs1 : HasDerivAt s1 ds1 v) :
    HasDerivAt (fun v => D2GDT2 (t v) (p v) (s0 v) (s1 v))
    ((0) + ((D3GDT3 (p v) (s0 v) (s1 v)) * dt + (D3GDT2DP (t v) (s0 v) (s1 v)) * dp) + ((D3GDS0DT2 (t v) (p v)
    (s1 v)) * ds0 + (D3GDS1DT2 (t v) (p v) (s0 v)) * ds1)) v := by
  try simp only [D2GDT2, D3GDT3, D3GDT2DP, D3GDS0DT2, D3GDS1DT2, zero_mul, mul_zero, add_zero, zero_add, sub_zero]
  refine HasDerivAt.congr_deriv (by hdo) ?_
  ring

lemma c_D2GDTDP {t p s0 s1 : ℝ → ℝ} {v dt dp ds0 ds1 : ℝ} (ht : HasDerivAt t dt v) (hp : HasDerivAt p dp v) (hs0 :
    HasDerivAt s0 ds0 v) (hs1 : HasDerivAt s1 ds1 v) :
    HasDerivAt (fun v => D2GDTDP (t v) (s0 v) (s1 v))
    ((0) + ((D3GDT2DP (t v) (s0 v) (s1 v)) * dt + D3GDTDP2 * dp) + ((D3GDS0DTDP (t v) (s1 v)) * ds0 + (D3GDS1DTDP
    (t v) (s0 v)) * ds1)) v := by
  try simp only [D2GDTDP, D3GDT2DP, D3GDTDP2, D3GDS0DTDP, D3GDS1DTDP, zero_mul, mul_zero, add_zero, zero_add, sub_zero]
  refine HasDerivAt.congr_deriv (by hdo) ?_
  ring

lemma c_D2GDP2 {t p s0 s1 : ℝ → ℝ} {v dt dp ds0 ds1 : ℝ} (ht : HasDerivAt t dt v) (hp : HasDerivAt p dp v) (hs0 :
    HasDerivAt s0 ds0 v) (hs1 : HasDerivAt s1 ds1 v) :
    HasDerivAt (fun v => D2GDP2)
    ((0) + (D3GDTDP2 * dt + D3GDP3 * dp) + (D3GDS0DP2 * ds0 + D3GDS1DP2 * ds1)) v := by
  try simp only [D2GDP2, D3GDTDP2, D3GDP3, D3GDS0DP2, D3GDS1DP2, zero_mul, mul_zero, add_zero, zero_add, sub_zero]
  refine HasDerivAt.congr_deriv (by hdo) ?_
  ring

attribute [local irreducible] S H V G DGDS0 DGDS1 DGDT DGDP D2GDS0S0 D2GDS0S1 D2GDS0DT D2GDS0DP D2GDS1S1
    D2GDS1DT D2GDS1DP D2GDT2 D2GDTDP D3GDS0S0S0 D3GDS0S0DP D3GDS0S1DT D3GDS0S1DP D3GDS0DT2 D3GDS0DTDP D3GDS1S1S1
    D3GDS1S1DP D3GDS1DT2 D3GDS1DTDP D3GDT3 D3GDT2DP

lemma gr_g (y : Var 0 2 → ℝ) (hy : Dom y) :
    Gr (fun y => (tables (raw y) y).g) y ((tables (raw y) y).at1) := by
  refine Gr.of_lines ?_ fun u => ?_
  · have hp := pos y hy
    change DifferentiableAt ℝ (fun y => G (y (.inl iT)) (y (.inl iP)) (y (.inr 0)) (y (.inr 1))) y
    try simp only [H, S, V, G, zero_mul, mul_zero, add_zero, zero_add, sub_zero]
    ddo
  · have hp := pos y hy
    have h := c_G (hl y u ((.inl iT))) (hl y u ((.inl iP))) (hl y u ((.inr 0))) (hl y u ((.inr 1)))
    try simp only [zero_mul, add_zero] at h
    refine h.congr_deriv ?_
    rw [sum_var]; simp only [Fin.sum_univ_two, Fin.sum_univ_zero]; rfl

lemma gr_dgds_0 (y : Var 0 2 → ℝ) (hy : Dom y) :
    Gr (fun y => (tables (raw y) y).dgds 0) y ((tables (raw y) y).at2 (.inr 0)) := by
  refine Gr.of_lines ?_ fun u => ?_
  · have hp := pos y hy
    change DifferentiableAt ℝ (fun y => DGDS0 (y (.inl iT)) (y (.inl iP)) (y (.inr 0)) (y (.inr 1))) y
    try simp only [DGDS0, zero_mul, mul_zero, add_zero, zero_add, sub_zero]
    ddo
  · have hp := pos y hy
    have h := c_DGDS0 (hl y u ((.inl iT))) (hl y u ((.inl iP))) (hl y u ((.inr 0))) (hl y u ((.inr 1)))
    try simp only [zero_mul, add_zero] at h
    refine h.congr_deriv ?_
    rw [sum_var]; simp only [Fin.sum_univ_two, Fin.sum_univ_zero]; rfl

lemma gr_dgds_1 (y : Var 0 2 → ℝ) (hy : Dom y) :
    Gr (fun y => (tables (raw y) y).dgds 1) y ((tables (raw y) y).at2 (.inr 1)) := by
  refine Gr.of_lines ?_ fun u => ?_
  · have hp := pos y hy
    change DifferentiableAt ℝ (fun y => DGDS1 (y (.inl iT)) (y (.inl iP)) (y (.inr 0)) (y (.inr 1))) y
    try simp only [DGDS1, zero_mul, mul_zero, add_zero, zero_add, sub_zero]
    ddo
  · have hp := pos y hy
    have h := c_DGDS1 (hl y u ((.inl iT))) (hl y u ((.inl iP))) (hl y u ((.inr 0))) (hl y u ((.inr 1)))
    try simp only [zero_mul, add_zero] at h
    refine h.congr_deriv ?_
    rw [sum_var]; simp only [Fin.sum_univ_two, Fin.sum_univ_zero]; rfl

lemma gr_dgdt (y : Var 0 2 → ℝ) (hy : Dom y) :
    Gr (fun y => (tables (raw y) y).dgdt) y ((tables (raw y) y).at2 (.inl iT)) := by
  refine Gr.of_lines ?_ fun u => ?_
  · have hp := pos y hy
    change DifferentiableAt ℝ (fun y => DGDT (y (.inl iT)) (y (.inl iP)) (y (.inr 0)) (y (.inr 1))) y
    try simp only [S, DGDT, zero_mul, mul_zero, add_zero, zero_add, sub_zero]
    ddo
  · have hp := pos y hy
    have h := c_DGDT (hl y u ((.inl iT))) (hl y u ((.inl iP))) (hl y u ((.inr 0))) (hl y u ((.inr 1)))
    try simp only [zero_mul, add_zero] at h
    refine h.congr_deriv ?_
    rw [sum_var]; simp only [Fin.sum_univ_two, Fin.sum_univ_zero]; rfl

lemma gr_dgdp (y : Var 0 2 → ℝ) (hy : Dom y) :
    Gr (fun y => (tables (raw y) y).dgdp) y ((tables (raw y) y).at2 (.inl iP)) := by
  refine Gr.of_lines ?_ fun u => ?_
  · have hp := pos y hy
    change DifferentiableAt ℝ (fun y => DGDP (y (.inl iT)) (y (.inr 0)) (y (.inr 1))) y
    try simp only [H, V, DGDP, zero_mul, mul_zero, add_zero, zero_add, sub_zero]
    ddo
  · have hp := pos y hy
    have h := c_DGDP (hl y u ((.inl iT))) (hl y u ((.inl iP))) (hl y u ((.inr 0))) (hl y u ((.inr 1)))
    try simp only [zero_mul, add_zero] at h
    refine h.congr_deriv ?_
    rw [sum_var]; simp only [Fin.sum_univ_two, Fin.sum_univ_zero]; rfl

lemma gr_d2gds2_0_0 (y : Var 0 2 → ℝ) (hy : Dom y) :
    Gr (fun y => (tables (raw y) y).d2gds2 0 0) y ((tables (raw y) y).at3 (.inr 0) (.inr 0)) := by
  refine Gr.of_lines ?_ fun u => ?_
  · have hp := pos y hy
    change DifferentiableAt ℝ (fun y => D2GDS0S0 (y (.inl iT)) (y (.inl iP)) (y (.inr 0))) y
    try simp only [D2GDS0S0, zero_mul, mul_zero, add_zero, zero_add, sub_zero]
    ddo
  · have hp := pos y hy
    have h := c_D2GDS0S0 (hl y u ((.inl iT))) (hl y u ((.inl iP))) (hl y u ((.inr 0))) (hl y u ((.inr 1)))
    try simp only [zero_mul, add_zero] at h
    refine h.congr_deriv ?_
    rw [sum_var]; simp only [Fin.sum_univ_two, Fin.sum_univ_zero]; rfl

lemma gr_d2gds2_0_1 (y : Var 0 2 → ℝ) (hy : Dom y) :
    Gr (fun y => (tables (raw y) y).d2gds2 0 1) y ((tables (raw y) y).at3 (.inr 0) (.inr 1)) := by
  refine Gr.of_lines ?_ fun u => ?_
  · have hp := pos y hy
    change DifferentiableAt ℝ (fun y => D2GDS0S1 (y (.inl iT)) (y (.inl iP))) y
    try simp only [D2GDS0S1, zero_mul, mul_zero, add_zero, zero_add, sub_zero]
    ddo
  · have hp := pos y hy
    have h := c_D2GDS0S1 (hl y u ((.inl iT))) (hl y u ((.inl iP))) (hl y u ((.inr 0))) (hl y u ((.inr 1)))
    try simp only [zero_mul, add_zero] at h
    refine h.congr_deriv ?_
    rw [sum_var]; simp only [Fin.sum_univ_two, Fin.sum_univ_zero]; rfl

lemma gr_d2gdsdt_0 (y : Var 0 2 → ℝ) (hy : Dom y) :
    Gr (fun y => (tables (raw y) y).d2gdsdt 0) y ((tables (raw y) y).at3 (.inr 0) (.inl iT)) := by
  refine Gr.of_lines ?_ fun u => ?_
  · have hp := pos y hy
    change DifferentiableAt ℝ (fun y => D2GDS0DT (y (.inl iT)) (y (.inl iP)) (y (.inr 0)) (y (.inr 1))) y
    try simp only [D2GDS0DT, zero_mul, mul_zero, add_zero, zero_add, sub_zero]
    ddo
  · have hp := pos y hy
    have h := c_D2GDS0DT (hl y u ((.inl iT))) (hl y u ((.inl iP))) (hl y u ((.inr 0))) (hl y u ((.inr 1)))
    try simp only [zero_mul, add_zero] at h
    refine h.congr_deriv ?_
    rw [sum_var]; simp only [Fin.sum_univ_two, Fin.sum_univ_zero]; rfl

lemma gr_d2gdsdp_0 (y : Var 0 2 → ℝ) (hy : Dom y) :
    Gr (fun y => (tables (raw y) y).d2gdsdp 0) y ((tables (raw y) y).at3 (.inr 0) (.inl iP)) := by
  refine Gr.of_lines ?_ fun u => ?_
  · have hp := pos y hy
    change DifferentiableAt ℝ (fun y => D2GDS0DP (y (.inl iT)) (y (.inr 0)) (y (.inr 1))) y
    try simp only [D2GDS0DP, zero_mul, mul_zero, add_zero, zero_add, sub_zero]
    ddo
  · have hp := pos y hy
    have h := c_D2GDS0DP (hl y u ((.inl iT))) (hl y u ((.inl iP))) (hl y u ((.inr 0))) (hl y u ((.inr 1)))
    try simp only [zero_mul, add_zero] at h
    refine h.congr_deriv ?_
    rw [sum_var]; simp only [Fin.sum_univ_two, Fin.sum_univ_zero]; rfl

lemma gr_d2gds2_1_1 (y : Var 0 2 → ℝ) (hy : Dom y) :
    Gr (fun y => (tables (raw y) y).d2gds2 1 1) y ((tables (raw y) y).at3 (.inr 1) (.inr 1)) := by
  refine Gr.of_lines ?_ fun u => ?_
  · have hp := pos y hy
    change DifferentiableAt ℝ (fun y => D2GDS1S1 (y (.inl iT)) (y (.inl iP)) (y (.inr 1))) y
    try simp only [D2GDS1S1, zero_mul, mul_zero, add_zero, zero_add, sub_zero]
    ddo
  · have hp := pos y hy
    have h := c_D2GDS1S1 (hl y u ((.inl iT))) (hl y u ((.inl iP))) (hl y u ((.inr 0))) (hl y u ((.inr 1)))
    try simp only [zero_mul, add_zero] at h
    refine h.congr_deriv ?_
    rw [sum_var]; simp only [Fin.sum_univ_two, Fin.sum_univ_zero]; rfl

lemma gr_d2gdsdt_1 (y : Var 0 2 → ℝ) (hy : Dom y) :
    Gr (fun y => (tables (raw y) y).d2gdsdt 1) y ((tables (raw y) y).at3 (.inr 1) (.inl iT)) := by
  refine Gr.of_lines ?_ fun u => ?_
  · have hp := pos y hy
    change DifferentiableAt ℝ (fun y => D2GDS1DT (y (.inl iT)) (y (.inl iP)) (y (.inr 0)) (y (.inr 1))) y
    try simp only [D2GDS1DT, zero_mul, mul_zero, add_zero, zero_add, sub_zero]
    ddo
  · have hp := pos y hy
    have h := c_D2GDS1DT (hl y u ((.inl iT))) (hl y u ((.inl iP))) (hl y u ((.inr 0))) (hl y u ((.inr 1)))
    try simp only [zero_mul, add_zero] at h
    refine h.congr_deriv ?_
    rw [sum_var]; simp only [Fin.sum_univ_two, Fin.sum_univ_zero]; rfl

lemma gr_d2gdsdp_1 (y : Var 0 2 → ℝ) (hy : Dom y) :
    Gr (fun y => (tables (raw y) y).d2gdsdp 1) y ((tables (raw y) y).at3 (.inr 1) (.inl iP)) := by
  refine Gr.of_lines ?_ fun u => ?_
  · have hp := pos y hy
    change DifferentiableAt ℝ (fun y => D2GDS1DP (y (.inl iT)) (y (.inr 0)) (y (.inr 1))) y
    try simp only [D2GDS1DP, zero_mul, mul_zero, add_zero, zero_add, sub_zero]
    ddo
  · have hp := pos y hy
    have h := c_D2GDS1DP (hl y u ((.inl iT))) (hl y u ((.inl iP))) (hl y u ((.inr 0))) (hl y u ((.inr 1)))
    try simp only [zero_mul, add_zero] at h
    refine h.congr_deriv ?_
    rw [sum_var]; simp only [Fin.sum_univ_two, Fin.sum_univ_zero]; rfl

lemma gr_d2gdt2 (y : Var 0 2 → ℝ) (hy : Dom y) :
    Gr (fun y => (tables (raw y) y).d2gdt2) y ((tables (raw y) y).at3 (.inl iT) (.inl iT)) := by
  refine Gr.of_lines ?_ fun u => ?_
  · have hp := pos y hy
    change DifferentiableAt ℝ (fun y => D2GDT2 (y (.inl iT)) (y (.inl iP)) (y (.inr 0)) (y (.inr 1))) y
    try simp only [D2GDT2, zero_mul, mul_zero, add_zero, zero_add, sub_zero]
    ddo
  · have hp := pos y hy
    have h := c_D2GDT2 (hl y u ((.inl iT))) (hl y u ((.inl iP))) (hl y u ((.inr 0))) (hl y u ((.inr 1)))
    try simp only [zero_mul, add_zero] at h
    refine h.congr_deriv ?_
    rw [sum_var]; simp only [Fin.sum_univ_two, Fin.sum_univ_zero]; rfl

lemma gr_d2gdtdp (y : Var 0 2 → ℝ) (hy : Dom y) :
    Gr (fun y => (tables (raw y) y).d2gdtdp) y ((tables (raw y) y).at3 (.inl iT) (.inl iP)) := by
  refine Gr.of_lines ?_ fun u => ?_
  · have hp := pos y hy
    change DifferentiableAt ℝ (fun y => D2GDTDP (y (.inl iT)) (y (.inr 0)) (y (.inr 1))) y
    try simp only [D2GDTDP, zero_mul, mul_zero, add_zero, zero_add, sub_zero]
    ddo
  · have hp := pos y hy
    have h := c_D2GDTDP (hl y u ((.inl iT))) (hl y u ((.inl iP))) (hl y u ((.inr 0))) (hl y u ((.inr 1)))
    try simp only [zero_mul, add_zero] at h
    refine h.congr_deriv ?_
    rw [sum_var]; simp only [Fin.sum_univ_two, Fin.sum_univ_zero]; rfl

lemma gr_d2gdp2 (y : Var 0 2 → ℝ) (hy : Dom y) :
    Gr (fun y => (tables (raw y) y).d2gdp2) y ((tables (raw y) y).at3 (.inl iP) (.inl iP)) := by
  refine Gr.of_lines ?_ fun u => ?_
  · have hp := pos y hy
    change DifferentiableAt ℝ (fun y => D2GDP2) y
    try simp only [D2GDP2, zero_mul, mul_zero, add_zero, zero_add, sub_zero]
    ddo
  · have hp := pos y hy
    have h := c_D2GDP2 (hl y u ((.inl iT))) (hl y u ((.inl iP))) (hl y u ((.inr 0))) (hl y u ((.inr 1)))
    try simp only [zero_mul, add_zero] at h
    refine h.congr_deriv ?_
    rw [sum_var]; simp only [Fin.sum_univ_two, Fin.sum_univ_zero]; rfl

lemma symm (x : Fin 0 → ℝ) (y : Var 0 2 → ℝ) : (tables x y).Symm := by
  constructor
  · intro i j; fin_cases i <;> fin_cases j <;> rfl
  · intro i j; fin_cases i <;> fin_cases j <;> rfl
  · intro i j k; fin_cases i <;> fin_cases j <;> fin_cases k <;> exact ⟨rfl, rfl⟩
  · intro i j k; fin_cases i <;> fin_cases j <;> fin_cases k <;> rfl
  · intro i j; fin_cases i <;> fin_cases j <;> rfl
  · intro i j; fin_cases i <;> fin_cases j <;> rfl
  · intro i j k; fin_cases i <;> fin_cases j <;> fin_cases k <;> rfl
  · intro i j k; fin_cases i <;> fin_cases j <;> fin_cases k <;> exact ⟨rfl, rfl⟩
  · intro i j; fin_cases i <;> fin_cases j <;> rfl
  · intro i j; fin_cases i <;> fin_cases j <;> rfl

lemma ok_raw : (jets fun y => tables (raw y) y).Ok Dom := by
  refine jets_ok (fun y _ => symm (raw y) y) gr_g ?_ gr_dgdt gr_dgdp ?_ ?_ ?_ ?_ ?_ ?_ ?_ ?_ gr_d2gdt2 gr_d2gdtdp gr_d2gdp2
  · intro y hy i
    fin_cases i
  · intro y hy i
    fin_cases i
    · exact gr_dgds_0 y hy
    · exact gr_dgds_1 y hy
  · intro y hy i j
    fin_cases i <;> fin_cases j
  · intro y hy i j
    fin_cases i <;> fin_cases j
  · intro y hy i
    fin_cases i
  · intro y hy i
    fin_cases i
  · intro y hy i j
    fin_cases i <;> fin_cases j
    · exact gr_d2gds2_0_0 y hy
    · exact gr_d2gds2_0_1 y hy
    · exact (gr_d2gds2_0_1 y hy).congr_d (funext fun k => ((symm (raw y) y).at3 _ _ k).1)
    · exact gr_d2gds2_1_1 y hy
  · intro y hy i
    fin_cases i
    · exact gr_d2gdsdt_0 y hy
    · exact gr_d2gdsdt_1 y hy
  · intro y hy i
    fin_cases i
    · exact gr_d2gdsdp_0 y hy
    · exact gr_d2gdsdp_1 y hy

lemma site_eq (y : Var 0 2 → ℝ) (hy : Dom y) : site y = raw y := by
  funext k; exact k.elim0

lemma dom_open : IsOpen {y | Dom y} := by
  exact isOpen_const

/-- The arrays of albite.c are the derivatives of its Gibbs energy to third order. -/
theorem ok : (jets macros).Ok Dom :=
  ok_congr dom_open (fun y hy => by unfold macros; rw [site_eq y hy]) ok_raw

lemma entropy_eq (y : Var 0 2 → ℝ) : (jets macros).g1 y (.inl iT) = -(macros y).s := by
  change DGDT (y (.inl iT)) (y (.inl iP)) (y (.inr 0)) (y (.inr 1)) = -(-(DGDT (y (.inl iT)) (y (.inl iP)) (y (.inr 0)) (y (.inr 1))))
  rw [neg_neg]

end Albite

end

end Verif.Thermo.Ordering
