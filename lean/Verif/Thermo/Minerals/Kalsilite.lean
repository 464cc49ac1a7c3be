import Verif.Thermo.Mixing
import Mathlib.Tactic.FinCases

/-!
Kalsilite. The `DBL_MAX` returned for a composition without vacancies is kept (`orMax`). Generated by /verif/tools/gen/genmix.py from the macros of /repo/sources: one definition per macro, with the
macros it mentions as definitions (the generator checks that this has the value of C's textual substitution). The
theorem `C24_*` of each phase says that the outputs of its mixing functions fit together (`Mix.Consistent`) wherever
the site fractions are above `DBL_EPSILON` (and `xvc - xca` with them). Simplification: `double` is the real numbers.
-/

set_option linter.unusedVariables false
set_option linter.unusedTactic false
set_option linter.unreachableTactic false
set_option linter.unusedSimpArgs false

namespace Magma.Thermo.Mixing

open Magma.Thermo.Extensive Magma.Thermo.Compo

noncomputable section

/-- `(y > 0.0) ? e : DBL_MAX`, kalsilite.c 153. -/
def orMax (y e : ℝ) : ℝ := if y > 0 then e else (2 - 2 ^ (-52 : ℤ)) * 2 ^ 1023

/-- The two clamps of a site fraction, kalsilite.c 649-656 (and 767-774, 811-818, 838-845, 885-892, 940-947). -/
def clamp2 (y : ℝ) : ℝ := if clamp y ≥ 1 - eps then 1 - eps else clamp y

theorem clamp2_of {y : ℝ} (h : y > eps) (h' : y < 1 - eps) : clamp2 y = y := by
  unfold clamp2
  rw [clamp_of h, if_neg (not_le.mpr h')]

theorem hasDerivAt_orMax {f g : ℝ → ℝ} {f' g' x : ℝ} (hg : HasDerivAt g g' x) (hf : HasDerivAt f f' x)
    (h : 0 < g x) : HasDerivAt (fun y => orMax (g y) (f y)) f' x := by
  refine hf.congr_of_eventuallyEq ?_
  filter_upwards [hg.continuousAt.eventually (lt_mem_nhds h)] with y hy
  exact if_pos hy

theorem differentiableAt_orMax {nr : ℕ} {f g : (Fin nr → ℝ) → ℝ} {x : Fin nr → ℝ} (hg : DifferentiableAt ℝ g x)
    (hf : DifferentiableAt ℝ f x) (h : 0 < g x) : DifferentiableAt ℝ (fun y => orMax (g y) (f y)) x := by
  refine hf.congr_of_eventuallyEq ?_
  filter_upwards [hg.continuousAt.eventually (lt_mem_nhds h)] with y hy
  exact if_pos hy

/-- Two choices of the site fractions that agree on an open set give the same consistency there. -/
theorem consistent_sites {nr ns : ℕ} (F : (Fin ns → ℝ) → Mix nr) (raw sites : (Fin nr → ℝ) → Fin ns → ℝ)
    (D : (Fin nr → ℝ) → Prop) (ho : IsOpen {r | D r}) (hs : ∀ r, D r → sites r = raw r)
    (h : (ofSites F raw).Consistent D) : (ofSites F sites).Consistent D := by
  have ev : ∀ r, D r → ∀ q : (Fin ns → ℝ) → (Fin nr → ℝ) → ℝ,
      (fun r => q (sites r) r) =ᶠ[nhds r] fun r => q (raw r) r := by
    intro r hr q
    filter_upwards [ho.mem_nhds hr] with r hr
    rw [hs r hr]
  constructor
  · intro t p r hr
    refine Grad.congr ?_ (ev r hr fun X r => (F X).g t p r)
    simp only [ofSites, hs r hr]; exact h.g_r t p r hr
  · intro t p r hr i
    refine Grad.congr ?_ (ev r hr fun X r => (F X).gr t p r i)
    simp only [ofSites, hs r hr]; exact h.g_rr t p r hr i
  · intro t p r hr i j
    refine Grad.congr ?_ (ev r hr fun X r => (F X).grr t p r i j)
    simp only [ofSites, hs r hr]; exact h.g_rrr t p r hr i j
  · intro t p r hr; simp only [ofSites, hs r hr]; exact h.g_t t p r hr
  · intro t p r hr; simp only [ofSites, hs r hr]; exact h.h_eq t p r hr
  · intro t p r hr
    refine Grad.congr ?_ (ev r hr fun X r => (F X).s t p r)
    simp only [ofSites, hs r hr]; exact h.s_r t p r hr
  · intro t p r hr i
    refine Grad.congr ?_ (ev r hr fun X r => (F X).sr t p r i)
    simp only [ofSites, hs r hr]; exact h.s_rr t p r hr i
  · intro t p r hr; simp only [ofSites, hs r hr]; exact h.h_t t p r hr
  · intro t p r hr; simp only [ofSites, hs r hr]; exact h.cp_t t p r hr
  · intro t p r hr
    refine Grad.congr ?_ (ev r hr fun X r => (F X).cp t p r)
    simp only [ofSites, hs r hr]; exact h.cp_r t p r hr
  · intro t p r hr; simp only [ofSites, hs r hr]; exact h.g_p t p r hr
  · intro t p r hr
    refine Grad.congr ?_ (ev r hr fun X r => (F X).v t p r)
    simp only [ofSites, hs r hr]; exact h.v_r t p r hr
  · intro t p r hr i
    refine Grad.congr ?_ (ev r hr fun X r => (F X).vr t p r i)
    simp only [ofSites, hs r hr]; exact h.v_rr t p r hr i
  · intro t p r hr; simp only [ofSites, hs r hr]; exact h.v_t t p r hr
  · intro t p r hr; simp only [ofSites, hs r hr]; exact h.v_p t p r hr
  · intro t p r hr; simp only [ofSites, hs r hr]; exact h.v_tt t p r hr
  · intro t p r hr; simp only [ofSites, hs r hr]; exact h.v_tp t p r hr
  · intro t p r hr; simp only [ofSites, hs r hr]; exact h.v_pp t p r hr
  · intro t p r hr; simp only [ofSites, hs r hr]; exact h.v_rt t p r hr
  · intro t p r hr; simp only [ofSites, hs r hr]; exact h.v_rp t p r hr
  · intro t p r hr; simp only [ofSites, hs r hr]; exact h.g_rt t p r hr
  · intro t p r hr; simp only [ofSites, hs r hr]; exact h.g_rp t p r hr
  · intro t p r hr; simp only [ofSites, hs r hr]; exact h.s_rt t p r hr
  · intro t p r hr
    refine Grad.congr ?_ (ev r hr fun X r => (F X).vp t p r)
    simp only [ofSites, hs r hr]; exact h.vp_r t p r hr
  · intro t p r hr; simp only [ofSites, hs r hr]; exact h.sym2 t p r hr
  · intro t p r hr; simp only [ofSites, hs r hr]; exact h.sym3 t p r hr
  · intro r hr; simp only [ofSites, hs r hr]; exact h.fx_eq r hr

macro "hdk" : tactic => `(tactic| repeat' first
  | exact hasDerivAt_const _ _
  | exact hasDerivAt_id' _
  | assumption
  | apply HasDerivAt.fun_sub
  | apply HasDerivAt.fun_add
  | apply HasDerivAt.fun_neg
  | apply HasDerivAt.fun_div
  | apply HasDerivAt.fun_mul
  | apply HasDerivAt.fun_pow
  | apply HasDerivAt.log
  | apply hasDerivAt_orMax
  | apply mul_ne_zero
  | (norm_num; done))

macro "ddk" : tactic => `(tactic| repeat' first
  | apply differentiableAt_orMax
  | exact differentiableAt_const _
  | exact differentiableAt_apply _ _
  | assumption
  | apply DifferentiableAt.fun_sub
  | apply DifferentiableAt.fun_add
  | apply DifferentiableAt.fun_neg
  | apply differentiableAt_div
  | apply DifferentiableAt.fun_mul
  | apply DifferentiableAt.fun_pow
  | apply DifferentiableAt.log
  | apply differentiableAt_LOG
  | apply mul_ne_zero
  | apply pow_ne_zero
  | exact two_ne_zero
  | (norm_num; done))

namespace Kalsilite

/-- `WKALS`, kalsilite.c 100. -/
def WKALS : ℝ := 29288

/-- `WKVKALS`, kalsilite.c 101. -/
def WKVKALS : ℝ := 30334

/-- `WNVKALS`, kalsilite.c 102. -/
def WNVKALS : ℝ := 14646

/-- `WNCKALS`, kalsilite.c 103. -/
def WNCKALS : ℝ := 0

/-- `WKCKALS`, kalsilite.c 104. -/
def WKCKALS : ℝ := 14644

/-- `WVVKALS`, kalsilite.c 105. -/
def WVVKALS : ℝ := 0

/-- `DS1`, kalsilite.c 87. -/
def DS1 : ℝ := (523 / 50)

/-- `DS2`, kalsilite.c 90. -/
def DS2 : ℝ := 0

/-- `DS3`, kalsilite.c 93. -/
def DS3 : ℝ := -(187 / 10)

/-- `DS4`, kalsilite.c 96. -/
def DS4 : ℝ := -(717 / 100)

/-- `S4`, kalsilite.c 119. -/
def S4 : ℝ := -(31753 / 2000)

/-- `S`, kalsilite.c 139-140. -/
def S (t p r0 r1 r2 xk xvc xna xca : ℝ) : ℝ :=
  DS1 * (1 - r0 - r1 - r2) + DS2 * r0 + DS3 * r1 + (DS4 + S4) * r2 - 4 * R * (xk * Real.log xk + (xvc - xca) *
    Real.log (xvc - xca) + xna * Real.log xna + xca * Real.log xca)

/-- `DH1`, kalsilite.c 86. -/
def DH1 : ℝ := (3214567 / 100)

/-- `DH2`, kalsilite.c 89. -/
def DH2 : ℝ := -(28242 / 5)

/-- `DH3`, kalsilite.c 92. -/
def DH3 : ℝ := 14644

/-- `DH4`, kalsilite.c 95. -/
def DH4 : ℝ := 35184

/-- `H`, kalsilite.c 141-144. -/
def H (t p r0 r1 r2 xk xvc xna xca : ℝ) : ℝ :=
  DH1 * (1 - r0 - r1 - r2) + DH2 * r0 + DH3 * r1 + DH4 * r2 + WKALS * r0 * (1 - r0 - r1 - r2) + WNVKALS * r1 *
    (1 - r0 - r1 - r2) + WNCKALS * r2 * (1 - r0 - r1 - r2) + WKVKALS * r0 * r1 + WKCKALS * r0 * r2 + WVVKALS *
    r1 * r2

/-- `DV1`, kalsilite.c 88. -/
def DV1 : ℝ := 0

/-- `DV2`, kalsilite.c 91. -/
def DV2 : ℝ := -(1 / 25)

/-- `DV3`, kalsilite.c 94. -/
def DV3 : ℝ := 0

/-- `DV4`, kalsilite.c 97. -/
def DV4 : ℝ := 0

/-- `V`, kalsilite.c 145. -/
def V (t p r0 r1 r2 xk xvc xna xca : ℝ) : ℝ :=
  DV1 * (1 - r0 - r1 - r2) + DV2 * r0 + DV3 * r1 + DV4 * r2

/-- `PENALTY`, kalsilite.c 116. -/
def PENALTY : ℝ := Real.sqrt eps

/-- `G`, kalsilite.c 146. -/
def G (t p r0 r1 r2 xk xvc xna xca : ℝ) : ℝ :=
  (H t p r0 r1 r2 xk xvc xna xca) - t * (S t p r0 r1 r2 xk xvc xna xca) + (p - 1) * (V t p r0 r1 r2 xk xvc xna
    xca) + (orMax r1 (PENALTY / r1))

/-- `DGDR0`, kalsilite.c 150-153. -/
def DGDR0 (t p r0 r1 r2 xk xvc xna xca : ℝ) : ℝ :=
  -(DH1 - t * DS1 + (p - 1) * DV1) + (DH2 - t * DS2 + (p - 1) * DV2) + R * t * 4 * (Real.log xk - Real.log
    xna) + WKALS * (1 - 2 * r0 - r1 - r2) - WNVKALS * r1 - WNCKALS * r2 + WKVKALS * r1 + WKCKALS * r2

/-- `DGDR1`, kalsilite.c 154-158. -/
def DGDR1 (t p r0 r1 r2 xk xvc xna xca : ℝ) : ℝ :=
  -(DH1 - t * DS1 + (p - 1) * DV1) + (DH3 - t * DS3 + (p - 1) * DV3) + R * t * (Real.log (xvc - xca) -
    Real.log xna) - WKALS * r0 + WNVKALS * (1 - r0 - 2 * r1 - r2) - WNCKALS * r2 + WKVKALS * r0 + WVVKALS * r2 -
    (orMax r1 (PENALTY / (r1 * r1)))

/-- `G4`, kalsilite.c 120. -/
def G4 (t p r0 r1 r2 xk xvc xna xca : ℝ) : ℝ :=
  (-t) * S4

/-- `DGDR2`, kalsilite.c 159-164. -/
def DGDR2 (t p r0 r1 r2 xk xvc xna xca : ℝ) : ℝ :=
  -(DH1 - t * DS1 + (p - 1) * DV1) + (DH4 - t * DS4 + (p - 1) * DV4) + (G4 t p r0 r1 r2 xk xvc xna xca) + R *
    t * (Real.log xca - 2 * Real.log xna - 1) - WKALS * r0 - WNVKALS * r1 + WNCKALS * (1 - r0 - r1 - 2 * r2) +
    WKCKALS * r0 + WVVKALS * r1

/-- `DGDP`, kalsilite.c 166. -/
def DGDP (t p r0 r1 r2 xk xvc xna xca : ℝ) : ℝ :=
  (V t p r0 r1 r2 xk xvc xna xca)

/-- `D2GDR0R0`, kalsilite.c 170. -/
def D2GDR0R0 (t p r0 r1 r2 xk xvc xna xca : ℝ) : ℝ :=
  R * t * 4 * (1 / xk + 1 / xna) - 2 * WKALS

/-- `D2GDR0R1`, kalsilite.c 171. -/
def D2GDR0R1 (t p r0 r1 r2 xk xvc xna xca : ℝ) : ℝ :=
  R * t / xna - WKALS + WKVKALS - WNVKALS

/-- `D2GDR0R2`, kalsilite.c 172. -/
def D2GDR0R2 (t p r0 r1 r2 xk xvc xna xca : ℝ) : ℝ :=
  R * t * 2 / xna - WKALS - WNCKALS + WKCKALS

/-- `D2GDR0DT`, kalsilite.c 173. -/
def D2GDR0DT (t p r0 r1 r2 xk xvc xna xca : ℝ) : ℝ :=
  DS1 - DS2 + R * 4 * (Real.log xk - Real.log xna)

/-- `D2GDR0DP`, kalsilite.c 174. -/
def D2GDR0DP (t p r0 r1 r2 xk xvc xna xca : ℝ) : ℝ :=
  -DV1 + DV2

/-- `D2GDR1R1`, kalsilite.c 176-177. -/
def D2GDR1R1 (t p r0 r1 r2 xk xvc xna xca : ℝ) : ℝ :=
  R * t * (1 / 4) * (1 / (xvc - xca) + 1 / xna) - 2 * WNVKALS + (orMax r1 (2 * PENALTY / (r1 * r1 * r1)))

/-- `D2GDR1R2`, kalsilite.c 178. -/
def D2GDR1R2 (t p r0 r1 r2 xk xvc xna xca : ℝ) : ℝ :=
  R * t * ((1 / 2) / xna) - WNVKALS - WNCKALS + WVVKALS

/-- `D2GDR1DT`, kalsilite.c 179. -/
def D2GDR1DT (t p r0 r1 r2 xk xvc xna xca : ℝ) : ℝ :=
  DS1 - DS3 + R * (Real.log (xvc - xca) - Real.log xna)

/-- `D2GDR1DP`, kalsilite.c 180. -/
def D2GDR1DP (t p r0 r1 r2 xk xvc xna xca : ℝ) : ℝ :=
  -DV1 + DV3

/-- `D2GDR2R2`, kalsilite.c 182. -/
def D2GDR2R2 (t p r0 r1 r2 xk xvc xna xca : ℝ) : ℝ :=
  R * t * ((1 / 4) / xca + 1 / xna) - 2 * WNCKALS

/-- `D2GDR2DT`, kalsilite.c 183. -/
def D2GDR2DT (t p r0 r1 r2 xk xvc xna xca : ℝ) : ℝ :=
  DS1 - DS4 - S4 + R * (Real.log xca - 2 * Real.log xna - 1)

/-- `D2GDR2DP`, kalsilite.c 184. -/
def D2GDR2DP (t p r0 r1 r2 xk xvc xna xca : ℝ) : ℝ :=
  -DV1 + DV4

/-- `D2GDT2`, kalsilite.c 186. -/
def D2GDT2 (t p r0 r1 r2 xk xvc xna xca : ℝ) : ℝ :=
  0

/-- `D2GDTDP`, kalsilite.c 187. -/
def D2GDTDP (t p r0 r1 r2 xk xvc xna xca : ℝ) : ℝ :=
  0

/-- `D2GDP2`, kalsilite.c 188. -/
def D2GDP2 (t p r0 r1 r2 xk xvc xna xca : ℝ) : ℝ :=
  0

/-- `D3GDR0R0R0`, kalsilite.c 192. -/
def D3GDR0R0R0 (t p r0 r1 r2 xk xvc xna xca : ℝ) : ℝ :=
  (-R) * t * 4 * (1 / (xk * xk) - 1 / (xna * xna))

/-- `D3GDR0R0R1`, kalsilite.c 193. -/
def D3GDR0R0R1 (t p r0 r1 r2 xk xvc xna xca : ℝ) : ℝ :=
  R * t / (xna * xna)

/-- `D3GDR0R0R2`, kalsilite.c 195. -/
def D3GDR0R0R2 (t p r0 r1 r2 xk xvc xna xca : ℝ) : ℝ :=
  R * t * 2 / (xna * xna)

/-- `D3GDR0R0DT`, kalsilite.c 196. -/
def D3GDR0R0DT (t p r0 r1 r2 xk xvc xna xca : ℝ) : ℝ :=
  R * 4 * (1 / xk + 1 / xna)

/-- `D3GDR0R0DP`, kalsilite.c 197. -/
def D3GDR0R0DP (t p r0 r1 r2 xk xvc xna xca : ℝ) : ℝ :=
  0

/-- `D3GDR0R1R1`, kalsilite.c 199. -/
def D3GDR0R1R1 (t p r0 r1 r2 xk xvc xna xca : ℝ) : ℝ :=
  R * t * (1 / 4) / (xna * xna)

/-- `D3GDR0R1R2`, kalsilite.c 200. -/
def D3GDR0R1R2 (t p r0 r1 r2 xk xvc xna xca : ℝ) : ℝ :=
  R * t * (1 / 2) / (xna * xna)

/-- `D3GDR0R1DT`, kalsilite.c 201. -/
def D3GDR0R1DT (t p r0 r1 r2 xk xvc xna xca : ℝ) : ℝ :=
  R / xna

/-- `D3GDR0R1DP`, kalsilite.c 202. -/
def D3GDR0R1DP (t p r0 r1 r2 xk xvc xna xca : ℝ) : ℝ :=
  0

/-- `D3GDR0R2R2`, kalsilite.c 204. -/
def D3GDR0R2R2 (t p r0 r1 r2 xk xvc xna xca : ℝ) : ℝ :=
  R * t / (xna * xna)

/-- `D3GDR0R2DT`, kalsilite.c 205. -/
def D3GDR0R2DT (t p r0 r1 r2 xk xvc xna xca : ℝ) : ℝ :=
  R * 2 / xna

/-- `D3GDR0R2DP`, kalsilite.c 206. -/
def D3GDR0R2DP (t p r0 r1 r2 xk xvc xna xca : ℝ) : ℝ :=
  0

/-- `D3GDR1R1R1`, kalsilite.c 208-209. -/
def D3GDR1R1R1 (t p r0 r1 r2 xk xvc xna xca : ℝ) : ℝ :=
  (-R) * t * (1 / 4) * (1 / 4) * (1 / ((xvc - xca) * (xvc - xca)) - 1 / (xna * xna)) - (orMax r1 (6 * PENALTY
    / (r1 * r1 * r1 * r1)))

/-- `D3GDR1R1R2`, kalsilite.c 210. -/
def D3GDR1R1R2 (t p r0 r1 r2 xk xvc xna xca : ℝ) : ℝ :=
  R * t * (1 / 4) * ((1 / 2) / (xna * xna))

/-- `D3GDR1R1DT`, kalsilite.c 211. -/
def D3GDR1R1DT (t p r0 r1 r2 xk xvc xna xca : ℝ) : ℝ :=
  R * (1 / 4) * (1 / (xvc - xca) + 1 / xna)

/-- `D3GDR1R1DP`, kalsilite.c 212. -/
def D3GDR1R1DP (t p r0 r1 r2 xk xvc xna xca : ℝ) : ℝ :=
  0

/-- `D3GDR1R2R2`, kalsilite.c 214. -/
def D3GDR1R2R2 (t p r0 r1 r2 xk xvc xna xca : ℝ) : ℝ :=
  R * t * ((1 / 2) * (1 / 2) / (xna * xna))

/-- `D3GDR1R2DT`, kalsilite.c 215. -/
def D3GDR1R2DT (t p r0 r1 r2 xk xvc xna xca : ℝ) : ℝ :=
  R * ((1 / 2) / xna)

/-- `D3GDR1R2DP`, kalsilite.c 216. -/
def D3GDR1R2DP (t p r0 r1 r2 xk xvc xna xca : ℝ) : ℝ :=
  0

/-- `D3GDR2R2R2`, kalsilite.c 218. -/
def D3GDR2R2R2 (t p r0 r1 r2 xk xvc xna xca : ℝ) : ℝ :=
  R * t * ((-(1 / 4)) * (1 / 4) / (xca * xca) + (1 / 2) / (xna * xna))

/-- `D3GDR2R2DT`, kalsilite.c 219. -/
def D3GDR2R2DT (t p r0 r1 r2 xk xvc xna xca : ℝ) : ℝ :=
  R * ((1 / 4) / xca + 1 / xna)

/-- `D3GDR2R2DP`, kalsilite.c 220. -/
def D3GDR2R2DP (t p r0 r1 r2 xk xvc xna xca : ℝ) : ℝ :=
  0

/-- `D3GDT3`, kalsilite.c 222. -/
def D3GDT3 (t p r0 r1 r2 xk xvc xna xca : ℝ) : ℝ :=
  0

/-- `D3GDT2DP`, kalsilite.c 223. -/
def D3GDT2DP (t p r0 r1 r2 xk xvc xna xca : ℝ) : ℝ :=
  0

/-- `D3GDTDP2`, kalsilite.c 224. -/
def D3GDTDP2 (t p r0 r1 r2 xk xvc xna xca : ℝ) : ℝ :=
  0

/-- `D3GDP3`, kalsilite.c 225. -/
def D3GDP3 (t p r0 r1 r2 xk xvc xna xca : ℝ) : ℝ :=
  0

/-- `D3GDR0DT2`, kalsilite.c 227. -/
def D3GDR0DT2 (t p r0 r1 r2 xk xvc xna xca : ℝ) : ℝ :=
  0

/-- `D3GDR0DTDP`, kalsilite.c 228. -/
def D3GDR0DTDP (t p r0 r1 r2 xk xvc xna xca : ℝ) : ℝ :=
  0

/-- `D3GDR0DP2`, kalsilite.c 229. -/
def D3GDR0DP2 (t p r0 r1 r2 xk xvc xna xca : ℝ) : ℝ :=
  0

/-- `D3GDR1DT2`, kalsilite.c 230. -/
def D3GDR1DT2 (t p r0 r1 r2 xk xvc xna xca : ℝ) : ℝ :=
  0

/-- `D3GDR1DTDP`, kalsilite.c 231. -/
def D3GDR1DTDP (t p r0 r1 r2 xk xvc xna xca : ℝ) : ℝ :=
  0

/-- `D3GDR1DP2`, kalsilite.c 232. -/
def D3GDR1DP2 (t p r0 r1 r2 xk xvc xna xca : ℝ) : ℝ :=
  0

/-- `D3GDR2DT2`, kalsilite.c 233. -/
def D3GDR2DT2 (t p r0 r1 r2 xk xvc xna xca : ℝ) : ℝ :=
  0

/-- `D3GDR2DTDP`, kalsilite.c 234. -/
def D3GDR2DTDP (t p r0 r1 r2 xk xvc xna xca : ℝ) : ℝ :=
  0

/-- `D3GDR2DP2`, kalsilite.c 235. -/
def D3GDR2DP2 (t p r0 r1 r2 xk xvc xna xca : ℝ) : ℝ :=
  0

/-- The macros as the functions of kalsilite.c use them: `gmix`, `hmix`, `smix`, `cpmix`, `vmix` and `act`. -/
def F (x : Fin 4 → ℝ) : Mix 3 where
  g t p r := G t p (r 0) (r 1) (r 2) (x 0) (x 1) (x 2) (x 3)
  gr t p r := ![DGDR0 t p (r 0) (r 1) (r 2) (x 0) (x 1) (x 2) (x 3), DGDR1 t p (r 0) (r 1) (r 2) (x 0) (x 1) (x 2) (x 3), DGDR2 t p (r 0) (r 1) (r 2) (x 0) (x 1) (x 2) (x 3)]
  grr t p r := ![![D2GDR0R0 t p (r 0) (r 1) (r 2) (x 0) (x 1) (x 2) (x 3), D2GDR0R1 t p (r 0) (r 1) (r 2) (x 0) (x 1) (x 2) (x 3), D2GDR0R2 t p (r 0) (r 1) (r 2) (x 0) (x 1) (x 2) (x 3)], ![D2GDR0R1 t p (r 0) (r 1) (r 2) (x 0) (x 1) (x 2) (x 3), D2GDR1R1 t p (r 0) (r 1) (r 2) (x 0) (x 1) (x 2) (x 3), D2GDR1R2 t p (r 0) (r 1) (r 2) (x 0) (x 1) (x 2) (x 3)], ![D2GDR0R2 t p (r 0) (r 1) (r 2) (x 0) (x 1) (x 2) (x 3), D2GDR1R2 t p (r 0) (r 1) (r 2) (x 0) (x 1) (x 2) (x 3), D2GDR2R2 t p (r 0) (r 1) (r 2) (x 0) (x 1) (x 2) (x 3)]]
  grrr t p r := ![![![D3GDR0R0R0 t p (r 0) (r 1) (r 2) (x 0) (x 1) (x 2) (x 3), D3GDR0R0R1 t p (r 0) (r 1) (r 2) (x 0) (x 1) (x 2) (x 3), D3GDR0R0R2 t p (r 0) (r 1) (r 2) (x 0) (x 1) (x 2) (x 3)], ![D3GDR0R0R1 t p (r 0) (r 1) (r 2) (x 0) (x 1) (x 2) (x 3), D3GDR0R1R1 t p (r 0) (r 1) (r 2) (x 0) (x 1) (x 2) (x 3), D3GDR0R1R2 t p (r 0) (r 1) (r 2) (x 0) (x 1) (x 2) (x 3)], ![D3GDR0R0R2 t p (r 0) (r 1) (r 2) (x 0) (x 1) (x 2) (x 3), D3GDR0R1R2 t p (r 0) (r 1) (r 2) (x 0) (x 1) (x 2) (x 3), D3GDR0R2R2 t p (r 0) (r 1) (r 2) (x 0) (x 1) (x 2) (x 3)]], ![![D3GDR0R0R1 t p (r 0) (r 1) (r 2) (x 0) (x 1) (x 2) (x 3), D3GDR0R1R1 t p (r 0) (r 1) (r 2) (x 0) (x 1) (x 2) (x 3), D3GDR0R1R2 t p (r 0) (r 1) (r 2) (x 0) (x 1) (x 2) (x 3)], ![D3GDR0R1R1 t p (r 0) (r 1) (r 2) (x 0) (x 1) (x 2) (x 3), D3GDR1R1R1 t p (r 0) (r 1) (r 2) (x 0) (x 1) (x 2) (x 3), D3GDR1R1R2 t p (r 0) (r 1) (r 2) (x 0) (x 1) (x 2) (x 3)], ![D3GDR0R1R2 t p (r 0) (r 1) (r 2) (x 0) (x 1) (x 2) (x 3), D3GDR1R1R2 t p (r 0) (r 1) (r 2) (x 0) (x 1) (x 2) (x 3), D3GDR1R2R2 t p (r 0) (r 1) (r 2) (x 0) (x 1) (x 2) (x 3)]], ![![D3GDR0R0R2 t p (r 0) (r 1) (r 2) (x 0) (x 1) (x 2) (x 3), D3GDR0R1R2 t p (r 0) (r 1) (r 2) (x 0) (x 1) (x 2) (x 3), D3GDR0R2R2 t p (r 0) (r 1) (r 2) (x 0) (x 1) (x 2) (x 3)], ![D3GDR0R1R2 t p (r 0) (r 1) (r 2) (x 0) (x 1) (x 2) (x 3), D3GDR1R1R2 t p (r 0) (r 1) (r 2) (x 0) (x 1) (x 2) (x 3), D3GDR1R2R2 t p (r 0) (r 1) (r 2) (x 0) (x 1) (x 2) (x 3)], ![D3GDR0R2R2 t p (r 0) (r 1) (r 2) (x 0) (x 1) (x 2) (x 3), D3GDR1R2R2 t p (r 0) (r 1) (r 2) (x 0) (x 1) (x 2) (x 3), D3GDR2R2R2 t p (r 0) (r 1) (r 2) (x 0) (x 1) (x 2) (x 3)]]]
  h t p r := (G t p (r 0) (r 1) (r 2) (x 0) (x 1) (x 2) (x 3)) + t * (S t p (r 0) (r 1) (r 2) (x 0) (x 1) (x 2) (x 3))
  s t p r := S t p (r 0) (r 1) (r 2) (x 0) (x 1) (x 2) (x 3)
  sr t p r := ![-(D2GDR0DT t p (r 0) (r 1) (r 2) (x 0) (x 1) (x 2) (x 3)), -(D2GDR1DT t p (r 0) (r 1) (r 2) (x 0) (x 1) (x 2) (x 3)), -(D2GDR2DT t p (r 0) (r 1) (r 2) (x 0) (x 1) (x 2) (x 3))]
  srr t p r := ![![-(D3GDR0R0DT t p (r 0) (r 1) (r 2) (x 0) (x 1) (x 2) (x 3)), -(D3GDR0R1DT t p (r 0) (r 1) (r 2) (x 0) (x 1) (x 2) (x 3)), -(D3GDR0R2DT t p (r 0) (r 1) (r 2) (x 0) (x 1) (x 2) (x 3))], ![-(D3GDR0R1DT t p (r 0) (r 1) (r 2) (x 0) (x 1) (x 2) (x 3)), -(D3GDR1R1DT t p (r 0) (r 1) (r 2) (x 0) (x 1) (x 2) (x 3)), -(D3GDR1R2DT t p (r 0) (r 1) (r 2) (x 0) (x 1) (x 2) (x 3))], ![-(D3GDR0R2DT t p (r 0) (r 1) (r 2) (x 0) (x 1) (x 2) (x 3)), -(D3GDR1R2DT t p (r 0) (r 1) (r 2) (x 0) (x 1) (x 2) (x 3)), -(D3GDR2R2DT t p (r 0) (r 1) (r 2) (x 0) (x 1) (x 2) (x 3))]]
  cp t p r := -t * (D2GDT2 t p (r 0) (r 1) (r 2) (x 0) (x 1) (x 2) (x 3))
  cpt t p r := -t * (D3GDT3 t p (r 0) (r 1) (r 2) (x 0) (x 1) (x 2) (x 3)) - D2GDT2 t p (r 0) (r 1) (r 2) (x 0) (x 1) (x 2) (x 3)
  cpr t p r := ![-t * (D3GDR0DT2 t p (r 0) (r 1) (r 2) (x 0) (x 1) (x 2) (x 3)), -t * (D3GDR1DT2 t p (r 0) (r 1) (r 2) (x 0) (x 1) (x 2) (x 3)), -t * (D3GDR2DT2 t p (r 0) (r 1) (r 2) (x 0) (x 1) (x 2) (x 3))]
  v t p r := DGDP t p (r 0) (r 1) (r 2) (x 0) (x 1) (x 2) (x 3)
  vr t p r := ![D2GDR0DP t p (r 0) (r 1) (r 2) (x 0) (x 1) (x 2) (x 3), D2GDR1DP t p (r 0) (r 1) (r 2) (x 0) (x 1) (x 2) (x 3), D2GDR2DP t p (r 0) (r 1) (r 2) (x 0) (x 1) (x 2) (x 3)]
  vrr t p r := ![![D3GDR0R0DP t p (r 0) (r 1) (r 2) (x 0) (x 1) (x 2) (x 3), D3GDR0R1DP t p (r 0) (r 1) (r 2) (x 0) (x 1) (x 2) (x 3), D3GDR0R2DP t p (r 0) (r 1) (r 2) (x 0) (x 1) (x 2) (x 3)], ![D3GDR0R1DP t p (r 0) (r 1) (r 2) (x 0) (x 1) (x 2) (x 3), D3GDR1R1DP t p (r 0) (r 1) (r 2) (x 0) (x 1) (x 2) (x 3), D3GDR1R2DP t p (r 0) (r 1) (r 2) (x 0) (x 1) (x 2) (x 3)], ![D3GDR0R2DP t p (r 0) (r 1) (r 2) (x 0) (x 1) (x 2) (x 3), D3GDR1R2DP t p (r 0) (r 1) (r 2) (x 0) (x 1) (x 2) (x 3), D3GDR2R2DP t p (r 0) (r 1) (r 2) (x 0) (x 1) (x 2) (x 3)]]
  vt t p r := D2GDTDP t p (r 0) (r 1) (r 2) (x 0) (x 1) (x 2) (x 3)
  vp t p r := D2GDP2 t p (r 0) (r 1) (r 2) (x 0) (x 1) (x 2) (x 3)
  vtt t p r := D3GDT2DP t p (r 0) (r 1) (r 2) (x 0) (x 1) (x 2) (x 3)
  vtp t p r := D3GDTDP2 t p (r 0) (r 1) (r 2) (x 0) (x 1) (x 2) (x 3)
  vpp t p r := D3GDP3 t p (r 0) (r 1) (r 2) (x 0) (x 1) (x 2) (x 3)
  vrt t p r := ![D3GDR0DTDP t p (r 0) (r 1) (r 2) (x 0) (x 1) (x 2) (x 3), D3GDR1DTDP t p (r 0) (r 1) (r 2) (x 0) (x 1) (x 2) (x 3), D3GDR2DTDP t p (r 0) (r 1) (r 2) (x 0) (x 1) (x 2) (x 3)]
  vrp t p r := ![D3GDR0DP2 t p (r 0) (r 1) (r 2) (x 0) (x 1) (x 2) (x 3), D3GDR1DP2 t p (r 0) (r 1) (r 2) (x 0) (x 1) (x 2) (x 3), D3GDR2DP2 t p (r 0) (r 1) (r 2) (x 0) (x 1) (x 2) (x 3)]
  fx r := r

/-- Site fractions before clamping, lines 644 645 646 647 756 757 758 759 804 805 806 807 829 830 831 832 876 877 878 879 926 927 928 929 of kalsilite.c. -/
def raw (r : Fin 3 → ℝ) : Fin 4 → ℝ := ![r 0, (r 1 + r 2) / 4, 1 - r 0 - r 1 / 4 - r 2 / 2, r 2 / 4]

/-- What the functions take logarithms of: the site fractions and `xvc - xca`, the vacancies not paired with calcium
(kalsilite.c 144). -/
def dom (r : Fin 3 → ℝ) : Fin 5 → ℝ := ![r 0, (r 1 + r 2) / 4, 1 - r 0 - r 1 / 4 - r 2 / 2, r 2 / 4,
  (r 1 + r 2) / 4 - r 2 / 4]

/-- The phase as coded in kalsilite.c. -/
def mix : Mix 3 := ofSites F fun r k => clamp2 (raw r k)

theorem G_d0 (t p r0 r1 r2 : ℝ) (h0 : 0 < r0) (h1 : 0 < (r1 + r2) / 4) (h2 : 0 < 1 - r0 - r1 / 4 - r2 / 2) (h3 : 0 < r2 / 4) (h4 : 0 < (r1 + r2) / 4 - r2 / 4) :
    HasDerivAt (fun r0 => G t p r0 r1 r2 r0 ((r1 + r2) / 4) (1 - r0 - r1 / 4 - r2 / 2) (r2 / 4)) (DGDR0 t p r0 r1 r2 r0 ((r1 + r2) / 4) (1 - r0 - r1 / 4 - r2 / 2) (r2 / 4)) r0 := by
  have n0 := h0.ne'
  have n1 := h1.ne'
  have n2 := h2.ne'
  have n3 := h3.ne'
  have n4 := h4.ne'
  have a0 : 0 < r1 := by linarith
  have a1 := a0.ne'
  have a2 : r2 ≠ 0 := by intro h; rw [h] at h3; norm_num at h3
  have e0 : (r1 + r2) / 4 - r2 / 4 = r1 / 4 := by ring
  have e1 : ∀ e : ℝ, orMax r1 e = e := fun e => if_pos a0
  simp only [H, S, V, G, DGDR0]
  refine HasDerivAt.congr_deriv (by hdk) ?_
  all_goals try simp only [e0, e1]
  all_goals try generalize 1 - r0 - r1 / 4 - r2 / 2 = y at n2 ⊢
  all_goals first | ring1 | (field_simp; done) | (field_simp; ring1)

theorem G_d1 (t p r0 r1 r2 : ℝ) (h0 : 0 < r0) (h1 : 0 < (r1 + r2) / 4) (h2 : 0 < 1 - r0 - r1 / 4 - r2 / 2) (h3 : 0 < r2 / 4) (h4 : 0 < (r1 + r2) / 4 - r2 / 4) :
    HasDerivAt (fun r1 => G t p r0 r1 r2 r0 ((r1 + r2) / 4) (1 - r0 - r1 / 4 - r2 / 2) (r2 / 4)) (DGDR1 t p r0 r1 r2 r0 ((r1 + r2) / 4) (1 - r0 - r1 / 4 - r2 / 2) (r2 / 4)) r1 := by
  have n0 := h0.ne'
  have n1 := h1.ne'
  have n2 := h2.ne'
  have n3 := h3.ne'
  have n4 := h4.ne'
  have a0 : 0 < r1 := by linarith
  have a1 := a0.ne'
  have a2 : r2 ≠ 0 := by intro h; rw [h] at h3; norm_num at h3
  have e0 : (r1 + r2) / 4 - r2 / 4 = r1 / 4 := by ring
  have e1 : ∀ e : ℝ, orMax r1 e = e := fun e => if_pos a0
  simp only [H, S, V, G, DGDR1]
  refine HasDerivAt.congr_deriv (by hdk) ?_
  all_goals try simp only [e0, e1]
  all_goals try generalize 1 - r0 - r1 / 4 - r2 / 2 = y at n2 ⊢
  all_goals first | ring1 | (field_simp; done) | (field_simp; ring1)

theorem G_d2 (t p r0 r1 r2 : ℝ) (h0 : 0 < r0) (h1 : 0 < (r1 + r2) / 4) (h2 : 0 < 1 - r0 - r1 / 4 - r2 / 2) (h3 : 0 < r2 / 4) (h4 : 0 < (r1 + r2) / 4 - r2 / 4) :
    HasDerivAt (fun r2 => G t p r0 r1 r2 r0 ((r1 + r2) / 4) (1 - r0 - r1 / 4 - r2 / 2) (r2 / 4)) (DGDR2 t p r0 r1 r2 r0 ((r1 + r2) / 4) (1 - r0 - r1 / 4 - r2 / 2) (r2 / 4)) r2 := by
  have n0 := h0.ne'
  have n1 := h1.ne'
  have n2 := h2.ne'
  have n3 := h3.ne'
  have n4 := h4.ne'
  have a0 : 0 < r1 := by linarith
  have a1 := a0.ne'
  have a2 : r2 ≠ 0 := by intro h; rw [h] at h3; norm_num at h3
  have e0 : (r1 + r2) / 4 - r2 / 4 = r1 / 4 := by ring
  have e1 : ∀ e : ℝ, orMax r1 e = e := fun e => if_pos a0
  simp only [H, S, V, G, G4, DGDR2]
  refine HasDerivAt.congr_deriv (by hdk) ?_
  all_goals try simp only [e0, e1]
  all_goals try generalize 1 - r0 - r1 / 4 - r2 / 2 = y at n2 ⊢
  all_goals first | ring1 | (field_simp; done) | (field_simp; ring1)

theorem G_diff (t p : ℝ) (r : Fin 3 → ℝ) (h0 : 0 < r 0) (h1 : 0 < (r 1 + r 2) / 4) (h2 : 0 < 1 - r 0 - r 1 / 4 - r 2 / 2) (h3 : 0 < r 2 / 4) (h4 : 0 < (r 1 + r 2) / 4 - r 2 / 4) :
    DifferentiableAt ℝ (fun r : Fin 3 → ℝ => G t p (r 0) (r 1) (r 2) (r 0) ((r 1 + r 2) / 4) (1 - r 0 - r 1 / 4 - r 2 / 2) (r 2 / 4)) r := by
  have n0 := h0.ne'
  have n1 := h1.ne'
  have n2 := h2.ne'
  have n3 := h3.ne'
  have n4 := h4.ne'
  have a0 : 0 < r 1 := by linarith
  have a1 := a0.ne'
  have a2 : r 2 ≠ 0 := by intro h; rw [h] at h3; norm_num at h3
  have e0 : (r 1 + r 2) / 4 - r 2 / 4 = r 1 / 4 := by ring
  have e1 : ∀ e : ℝ, orMax (r 1) e = e := fun e => if_pos a0
  simp only [H, S, V, G]
  ddk

theorem DGDR0_d0 (t p r0 r1 r2 : ℝ) (h0 : 0 < r0) (h1 : 0 < (r1 + r2) / 4) (h2 : 0 < 1 - r0 - r1 / 4 - r2 / 2) (h3 : 0 < r2 / 4) (h4 : 0 < (r1 + r2) / 4 - r2 / 4) :
    HasDerivAt (fun r0 => DGDR0 t p r0 r1 r2 r0 ((r1 + r2) / 4) (1 - r0 - r1 / 4 - r2 / 2) (r2 / 4)) (D2GDR0R0 t p r0 r1 r2 r0 ((r1 + r2) / 4) (1 - r0 - r1 / 4 - r2 / 2) (r2 / 4)) r0 := by
  have n0 := h0.ne'
  have n1 := h1.ne'
  have n2 := h2.ne'
  have n3 := h3.ne'
  have n4 := h4.ne'
  have a0 : 0 < r1 := by linarith
  have a1 := a0.ne'
  have a2 : r2 ≠ 0 := by intro h; rw [h] at h3; norm_num at h3
  have e0 : (r1 + r2) / 4 - r2 / 4 = r1 / 4 := by ring
  have e1 : ∀ e : ℝ, orMax r1 e = e := fun e => if_pos a0
  simp only [DGDR0, D2GDR0R0]
  refine HasDerivAt.congr_deriv (by hdk) ?_
  all_goals try simp only [e0, e1]
  all_goals try generalize 1 - r0 - r1 / 4 - r2 / 2 = y at n2 ⊢
  all_goals first | ring1 | (field_simp; done) | (field_simp; ring1)

theorem DGDR0_d1 (t p r0 r1 r2 : ℝ) (h0 : 0 < r0) (h1 : 0 < (r1 + r2) / 4) (h2 : 0 < 1 - r0 - r1 / 4 - r2 / 2) (h3 : 0 < r2 / 4) (h4 : 0 < (r1 + r2) / 4 - r2 / 4) :
    HasDerivAt (fun r1 => DGDR0 t p r0 r1 r2 r0 ((r1 + r2) / 4) (1 - r0 - r1 / 4 - r2 / 2) (r2 / 4)) (D2GDR0R1 t p r0 r1 r2 r0 ((r1 + r2) / 4) (1 - r0 - r1 / 4 - r2 / 2) (r2 / 4)) r1 := by
  have n0 := h0.ne'
  have n1 := h1.ne'
  have n2 := h2.ne'
  have n3 := h3.ne'
  have n4 := h4.ne'
  have a0 : 0 < r1 := by linarith
  have a1 := a0.ne'
  have a2 : r2 ≠ 0 := by intro h; rw [h] at h3; norm_num at h3
  have e0 : (r1 + r2) / 4 - r2 / 4 = r1 / 4 := by ring
  have e1 : ∀ e : ℝ, orMax r1 e = e := fun e => if_pos a0
  simp only [DGDR0, D2GDR0R1]
  refine HasDerivAt.congr_deriv (by hdk) ?_
  all_goals try simp only [e0, e1]
  all_goals try generalize 1 - r0 - r1 / 4 - r2 / 2 = y at n2 ⊢
  all_goals first | ring1 | (field_simp; done) | (field_simp; ring1)

theorem DGDR0_d2 (t p r0 r1 r2 : ℝ) (h0 : 0 < r0) (h1 : 0 < (r1 + r2) / 4) (h2 : 0 < 1 - r0 - r1 / 4 - r2 / 2) (h3 : 0 < r2 / 4) (h4 : 0 < (r1 + r2) / 4 - r2 / 4) :
    HasDerivAt (fun r2 => DGDR0 t p r0 r1 r2 r0 ((r1 + r2) / 4) (1 - r0 - r1 / 4 - r2 / 2) (r2 / 4)) (D2GDR0R2 t p r0 r1 r2 r0 ((r1 + r2) / 4) (1 - r0 - r1 / 4 - r2 / 2) (r2 / 4)) r2 := by
  have n0 := h0.ne'
  have n1 := h1.ne'
  have n2 := h2.ne'
  have n3 := h3.ne'
  have n4 := h4.ne'
  have a0 : 0 < r1 := by linarith
  have a1 := a0.ne'
  have a2 : r2 ≠ 0 := by intro h; rw [h] at h3; norm_num at h3
  have e0 : (r1 + r2) / 4 - r2 / 4 = r1 / 4 := by ring
  have e1 : ∀ e : ℝ, orMax r1 e = e := fun e => if_pos a0
  simp only [DGDR0, D2GDR0R2]
  refine HasDerivAt.congr_deriv (by hdk) ?_
  all_goals try simp only [e0, e1]
  all_goals try generalize 1 - r0 - r1 / 4 - r2 / 2 = y at n2 ⊢
  all_goals first | ring1 | (field_simp; done) | (field_simp; ring1)

theorem DGDR0_diff (t p : ℝ) (r : Fin 3 → ℝ) (h0 : 0 < r 0) (h1 : 0 < (r 1 + r 2) / 4) (h2 : 0 < 1 - r 0 - r 1 / 4 - r 2 / 2) (h3 : 0 < r 2 / 4) (h4 : 0 < (r 1 + r 2) / 4 - r 2 / 4) :
    DifferentiableAt ℝ (fun r : Fin 3 → ℝ => DGDR0 t p (r 0) (r 1) (r 2) (r 0) ((r 1 + r 2) / 4) (1 - r 0 - r 1 / 4 - r 2 / 2) (r 2 / 4)) r := by
  have n0 := h0.ne'
  have n1 := h1.ne'
  have n2 := h2.ne'
  have n3 := h3.ne'
  have n4 := h4.ne'
  have a0 : 0 < r 1 := by linarith
  have a1 := a0.ne'
  have a2 : r 2 ≠ 0 := by intro h; rw [h] at h3; norm_num at h3
  have e0 : (r 1 + r 2) / 4 - r 2 / 4 = r 1 / 4 := by ring
  have e1 : ∀ e : ℝ, orMax (r 1) e = e := fun e => if_pos a0
  simp only [DGDR0]
  ddk

theorem DGDR1_d0 (t p r0 r1 r2 : ℝ) (h0 : 0 < r0) (h1 : 0 < (r1 + r2) / 4) (h2 : 0 < 1 - r0 - r1 / 4 - r2 / 2) (h3 : 0 < r2 / 4) (h4 : 0 < (r1 + r2) / 4 - r2 / 4) :
    HasDerivAt (fun r0 => DGDR1 t p r0 r1 r2 r0 ((r1 + r2) / 4) (1 - r0 - r1 / 4 - r2 / 2) (r2 / 4)) (D2GDR0R1 t p r0 r1 r2 r0 ((r1 + r2) / 4) (1 - r0 - r1 / 4 - r2 / 2) (r2 / 4)) r0 := by
  have n0 := h0.ne'
  have n1 := h1.ne'
  have n2 := h2.ne'
  have n3 := h3.ne'
  have n4 := h4.ne'
  have a0 : 0 < r1 := by linarith
  have a1 := a0.ne'
  have a2 : r2 ≠ 0 := by intro h; rw [h] at h3; norm_num at h3
  have e0 : (r1 + r2) / 4 - r2 / 4 = r1 / 4 := by ring
  have e1 : ∀ e : ℝ, orMax r1 e = e := fun e => if_pos a0
  simp only [DGDR1, D2GDR0R1]
  refine HasDerivAt.congr_deriv (by hdk) ?_
  all_goals try simp only [e0, e1]
  all_goals try generalize 1 - r0 - r1 / 4 - r2 / 2 = y at n2 ⊢
  all_goals first | ring1 | (field_simp; done) | (field_simp; ring1)

theorem DGDR1_d1 (t p r0 r1 r2 : ℝ) (h0 : 0 < r0) (h1 : 0 < (r1 + r2) / 4) (h2 : 0 < 1 - r0 - r1 / 4 - r2 / 2) (h3 : 0 < r2 / 4) (h4 : 0 < (r1 + r2) / 4 - r2 / 4) :
    HasDerivAt (fun r1 => DGDR1 t p r0 r1 r2 r0 ((r1 + r2) / 4) (1 - r0 - r1 / 4 - r2 / 2) (r2 / 4)) (D2GDR1R1 t p r0 r1 r2 r0 ((r1 + r2) / 4) (1 - r0 - r1 / 4 - r2 / 2) (r2 / 4)) r1 := by
  have n0 := h0.ne'
  have n1 := h1.ne'
  have n2 := h2.ne'
  have n3 := h3.ne'
  have n4 := h4.ne'
  have a0 : 0 < r1 := by linarith
  have a1 := a0.ne'
  have a2 : r2 ≠ 0 := by intro h; rw [h] at h3; norm_num at h3
  have e0 : (r1 + r2) / 4 - r2 / 4 = r1 / 4 := by ring
  have e1 : ∀ e : ℝ, orMax r1 e = e := fun e => if_pos a0
  simp only [DGDR1, D2GDR1R1]
  refine HasDerivAt.congr_deriv (by hdk) ?_
  all_goals try simp only [e0, e1]
  all_goals try generalize 1 - r0 - r1 / 4 - r2 / 2 = y at n2 ⊢
  all_goals first | ring1 | (field_simp; done) | (field_simp; ring1)

theorem DGDR1_d2 (t p r0 r1 r2 : ℝ) (h0 : 0 < r0) (h1 : 0 < (r1 + r2) / 4) (h2 : 0 < 1 - r0 - r1 / 4 - r2 / 2) (h3 : 0 < r2 / 4) (h4 : 0 < (r1 + r2) / 4 - r2 / 4) :
    HasDerivAt (fun r2 => DGDR1 t p r0 r1 r2 r0 ((r1 + r2) / 4) (1 - r0 - r1 / 4 - r2 / 2) (r2 / 4)) (D2GDR1R2 t p r0 r1 r2 r0 ((r1 + r2) / 4) (1 - r0 - r1 / 4 - r2 / 2) (r2 / 4)) r2 := by
  have n0 := h0.ne'
  have n1 := h1.ne'
  have n2 := h2.ne'
  have n3 := h3.ne'
  have n4 := h4.ne'
  have a0 : 0 < r1 := by linarith
  have a1 := a0.ne'
  have a2 : r2 ≠ 0 := by intro h; rw [h] at h3; norm_num at h3
  have e0 : (r1 + r2) / 4 - r2 / 4 = r1 / 4 := by ring
  have e1 : ∀ e : ℝ, orMax r1 e = e := fun e => if_pos a0
  simp only [DGDR1, D2GDR1R2]
  refine HasDerivAt.congr_deriv (by hdk) ?_
  all_goals try simp only [e0, e1]
  all_goals try generalize 1 - r0 - r1 / 4 - r2 / 2 = y at n2 ⊢
  all_goals first | ring1 | (field_simp; done) | (field_simp; ring1)

theorem DGDR1_diff (t p : ℝ) (r : Fin 3 → ℝ) (h0 : 0 < r 0) (h1 : 0 < (r 1 + r 2) / 4) (h2 : 0 < 1 - r 0 - r 1 / 4 - r 2 / 2) (h3 : 0 < r 2 / 4) (h4 : 0 < (r 1 + r 2) / 4 - r 2 / 4) :
    DifferentiableAt ℝ (fun r : Fin 3 → ℝ => DGDR1 t p (r 0) (r 1) (r 2) (r 0) ((r 1 + r 2) / 4) (1 - r 0 - r 1 / 4 - r 2 / 2) (r 2 / 4)) r := by
  have n0 := h0.ne'
  have n1 := h1.ne'
  have n2 := h2.ne'
  have n3 := h3.ne'
  have n4 := h4.ne'
  have a0 : 0 < r 1 := by linarith
  have a1 := a0.ne'
  have a2 : r 2 ≠ 0 := by intro h; rw [h] at h3; norm_num at h3
  have e0 : (r 1 + r 2) / 4 - r 2 / 4 = r 1 / 4 := by ring
  have e1 : ∀ e : ℝ, orMax (r 1) e = e := fun e => if_pos a0
  simp only [DGDR1]
  ddk

theorem DGDR2_d0 (t p r0 r1 r2 : ℝ) (h0 : 0 < r0) (h1 : 0 < (r1 + r2) / 4) (h2 : 0 < 1 - r0 - r1 / 4 - r2 / 2) (h3 : 0 < r2 / 4) (h4 : 0 < (r1 + r2) / 4 - r2 / 4) :
    HasDerivAt (fun r0 => DGDR2 t p r0 r1 r2 r0 ((r1 + r2) / 4) (1 - r0 - r1 / 4 - r2 / 2) (r2 / 4)) (D2GDR0R2 t p r0 r1 r2 r0 ((r1 + r2) / 4) (1 - r0 - r1 / 4 - r2 / 2) (r2 / 4)) r0 := by
  have n0 := h0.ne'
  have n1 := h1.ne'
  have n2 := h2.ne'
  have n3 := h3.ne'
  have n4 := h4.ne'
  have a0 : 0 < r1 := by linarith
  have a1 := a0.ne'
  have a2 : r2 ≠ 0 := by intro h; rw [h] at h3; norm_num at h3
  have e0 : (r1 + r2) / 4 - r2 / 4 = r1 / 4 := by ring
  have e1 : ∀ e : ℝ, orMax r1 e = e := fun e => if_pos a0
  simp only [G4, DGDR2, D2GDR0R2]
  refine HasDerivAt.congr_deriv (by hdk) ?_
  all_goals try simp only [e0, e1]
  all_goals try generalize 1 - r0 - r1 / 4 - r2 / 2 = y at n2 ⊢
  all_goals first | ring1 | (field_simp; done) | (field_simp; ring1)

theorem DGDR2_d1 (t p r0 r1 r2 : ℝ) (h0 : 0 < r0) (h1 : 0 < (r1 + r2) / 4) (h2 : 0 < 1 - r0 - r1 / 4 - r2 / 2) (h3 : 0 < r2 / 4) (h4 : 0 < (r1 + r2) / 4 - r2 / 4) :
    HasDerivAt (fun r1 => DGDR2 t p r0 r1 r2 r0 ((r1 + r2) / 4) (1 - r0 - r1 / 4 - r2 / 2) (r2 / 4)) (D2GDR1R2 t p r0 r1 r2 r0 ((r1 + r2) / 4) (1 - r0 - r1 / 4 - r2 / 2) (r2 / 4)) r1 := by
  have n0 := h0.ne'
  have n1 := h1.ne'
  have n2 := h2.ne'
  have n3 := h3.ne'
  have n4 := h4.ne'
  have a0 : 0 < r1 := by linarith
  have a1 := a0.ne'
  have a2 : r2 ≠ 0 := by intro h; rw [h] at h3; norm_num at h3
  have e0 : (r1 + r2) / 4 - r2 / 4 = r1 / 4 := by ring
  have e1 : ∀ e : ℝ, orMax r1 e = e := fun e => if_pos a0
  simp only [G4, DGDR2, D2GDR1R2]
  refine HasDerivAt.congr_deriv (by hdk) ?_
  all_goals try simp only [e0, e1]
  all_goals try generalize 1 - r0 - r1 / 4 - r2 / 2 = y at n2 ⊢
  all_goals first | ring1 | (field_simp; done) | (field_simp; ring1)

theorem DGDR2_d2 (t p r0 r1 r2 : ℝ) (h0 : 0 < r0) (h1 : 0 < (r1 + r2) / 4) (h2 : 0 < 1 - r0 - r1 / 4 - r2 / 2) (h3 : 0 < r2 / 4) (h4 : 0 < (r1 + r2) / 4 - r2 / 4) :
    HasDerivAt (fun r2 => DGDR2 t p r0 r1 r2 r0 ((r1 + r2) / 4) (1 - r0 - r1 / 4 - r2 / 2) (r2 / 4)) (D2GDR2R2 t p r0 r1 r2 r0 ((r1 + r2) / 4) (1 - r0 - r1 / 4 - r2 / 2) (r2 / 4)) r2 := by
  have n0 := h0.ne'
  have n1 := h1.ne'
  have n2 := h2.ne'
  have n3 := h3.ne'
  have n4 := h4.ne'
  have a0 : 0 < r1 := by linarith
  have a1 := a0.ne'
  have a2 : r2 ≠ 0 := by intro h; rw [h] at h3; norm_num at h3
  have e0 : (r1 + r2) / 4 - r2 / 4 = r1 / 4 := by ring
  have e1 : ∀ e : ℝ, orMax r1 e = e := fun e => if_pos a0
  simp only [G4, DGDR2, D2GDR2R2]
  refine HasDerivAt.congr_deriv (by hdk) ?_
  all_goals try simp only [e0, e1]
  all_goals try generalize 1 - r0 - r1 / 4 - r2 / 2 = y at n2 ⊢
  all_goals first | ring1 | (field_simp; done) | (field_simp; ring1)

theorem DGDR2_diff (t p : ℝ) (r : Fin 3 → ℝ) (h0 : 0 < r 0) (h1 : 0 < (r 1 + r 2) / 4) (h2 : 0 < 1 - r 0 - r 1 / 4 - r 2 / 2) (h3 : 0 < r 2 / 4) (h4 : 0 < (r 1 + r 2) / 4 - r 2 / 4) :
    DifferentiableAt ℝ (fun r : Fin 3 → ℝ => DGDR2 t p (r 0) (r 1) (r 2) (r 0) ((r 1 + r 2) / 4) (1 - r 0 - r 1 / 4 - r 2 / 2) (r 2 / 4)) r := by
  have n0 := h0.ne'
  have n1 := h1.ne'
  have n2 := h2.ne'
  have n3 := h3.ne'
  have n4 := h4.ne'
  have a0 : 0 < r 1 := by linarith
  have a1 := a0.ne'
  have a2 : r 2 ≠ 0 := by intro h; rw [h] at h3; norm_num at h3
  have e0 : (r 1 + r 2) / 4 - r 2 / 4 = r 1 / 4 := by ring
  have e1 : ∀ e : ℝ, orMax (r 1) e = e := fun e => if_pos a0
  simp only [G4, DGDR2]
  ddk

theorem D2GDR0R0_d0 (t p r0 r1 r2 : ℝ) (h0 : 0 < r0) (h1 : 0 < (r1 + r2) / 4) (h2 : 0 < 1 - r0 - r1 / 4 - r2 / 2) (h3 : 0 < r2 / 4) (h4 : 0 < (r1 + r2) / 4 - r2 / 4) :
    HasDerivAt (fun r0 => D2GDR0R0 t p r0 r1 r2 r0 ((r1 + r2) / 4) (1 - r0 - r1 / 4 - r2 / 2) (r2 / 4)) (D3GDR0R0R0 t p r0 r1 r2 r0 ((r1 + r2) / 4) (1 - r0 - r1 / 4 - r2 / 2) (r2 / 4)) r0 := by
  have n0 := h0.ne'
  have n1 := h1.ne'
  have n2 := h2.ne'
  have n3 := h3.ne'
  have n4 := h4.ne'
  have a0 : 0 < r1 := by linarith
  have a1 := a0.ne'
  have a2 : r2 ≠ 0 := by intro h; rw [h] at h3; norm_num at h3
  have e0 : (r1 + r2) / 4 - r2 / 4 = r1 / 4 := by ring
  have e1 : ∀ e : ℝ, orMax r1 e = e := fun e => if_pos a0
  simp only [D2GDR0R0, D3GDR0R0R0]
  refine HasDerivAt.congr_deriv (by hdk) ?_
  all_goals try simp only [e0, e1]
  all_goals try generalize 1 - r0 - r1 / 4 - r2 / 2 = y at n2 ⊢
  all_goals first | ring1 | (field_simp; done) | (field_simp; ring1)

theorem D2GDR0R0_d1 (t p r0 r1 r2 : ℝ) (h0 : 0 < r0) (h1 : 0 < (r1 + r2) / 4) (h2 : 0 < 1 - r0 - r1 / 4 - r2 / 2) (h3 : 0 < r2 / 4) (h4 : 0 < (r1 + r2) / 4 - r2 / 4) :
    HasDerivAt (fun r1 => D2GDR0R0 t p r0 r1 r2 r0 ((r1 + r2) / 4) (1 - r0 - r1 / 4 - r2 / 2) (r2 / 4)) (D3GDR0R0R1 t p r0 r1 r2 r0 ((r1 + r2) / 4) (1 - r0 - r1 / 4 - r2 / 2) (r2 / 4)) r1 := by
  have n0 := h0.ne'
  have n1 := h1.ne'
  have n2 := h2.ne'
  have n3 := h3.ne'
  have n4 := h4.ne'
  have a0 : 0 < r1 := by linarith
  have a1 := a0.ne'
  have a2 : r2 ≠ 0 := by intro h; rw [h] at h3; norm_num at h3
  have e0 : (r1 + r2) / 4 - r2 / 4 = r1 / 4 := by ring
  have e1 : ∀ e : ℝ, orMax r1 e = e := fun e => if_pos a0
  simp only [D2GDR0R0, D3GDR0R0R1]
  refine HasDerivAt.congr_deriv (by hdk) ?_
  all_goals try simp only [e0, e1]
  all_goals try generalize 1 - r0 - r1 / 4 - r2 / 2 = y at n2 ⊢
  all_goals first | ring1 | (field_simp; done) | (field_simp; ring1)

theorem D2GDR0R0_d2 (t p r0 r1 r2 : ℝ) (h0 : 0 < r0) (h1 : 0 < (r1 + r2) / 4) (h2 : 0 < 1 - r0 - r1 / 4 - r2 / 2) (h3 : 0 < r2 / 4) (h4 : 0 < (r1 + r2) / 4 - r2 / 4) :
    HasDerivAt (fun r2 => D2GDR0R0 t p r0 r1 r2 r0 ((r1 + r2) / 4) (1 - r0 - r1 / 4 - r2 / 2) (r2 / 4)) (D3GDR0R0R2 t p r0 r1 r2 r0 ((r1 + r2) / 4) (1 - r0 - r1 / 4 - r2 / 2) (r2 / 4)) r2 := by
  have n0 := h0.ne'
  have n1 := h1.ne'
  have n2 := h2.ne'
  have n3 := h3.ne'
  have n4 := h4.ne'
  have a0 : 0 < r1 := by linarith
  have a1 := a0.ne'
  have a2 : r2 ≠ 0 := by intro h; rw [h] at h3; norm_num at h3
  have e0 : (r1 + r2) / 4 - r2 / 4 = r1 / 4 := by ring
  have e1 : ∀ e : ℝ, orMax r1 e = e := fun e => if_pos a0
  simp only [D2GDR0R0, D3GDR0R0R2]
  refine HasDerivAt.congr_deriv (by hdk) ?_
  all_goals try simp only [e0, e1]
  all_goals try generalize 1 - r0 - r1 / 4 - r2 / 2 = y at n2 ⊢
  all_goals first | ring1 | (field_simp; done) | (field_simp; ring1)

theorem D2GDR0R0_diff (t p : ℝ) (r : Fin 3 → ℝ) (h0 : 0 < r 0) (h1 : 0 < (r 1 + r 2) / 4) (h2 : 0 < 1 - r 0 - r 1 / 4 - r 2 / 2) (h3 : 0 < r 2 / 4) (h4 : 0 < (r 1 + r 2) / 4 - r 2 / 4) :
    DifferentiableAt ℝ (fun r : Fin 3 → ℝ => D2GDR0R0 t p (r 0) (r 1) (r 2) (r 0) ((r 1 + r 2) / 4) (1 - r 0 - r 1 / 4 - r 2 / 2) (r 2 / 4)) r := by
  have n0 := h0.ne'
  have n1 := h1.ne'
  have n2 := h2.ne'
  have n3 := h3.ne'
  have n4 := h4.ne'
  have a0 : 0 < r 1 := by linarith
  have a1 := a0.ne'
  have a2 : r 2 ≠ 0 := by intro h; rw [h] at h3; norm_num at h3
  have e0 : (r 1 + r 2) / 4 - r 2 / 4 = r 1 / 4 := by ring
  have e1 : ∀ e : ℝ, orMax (r 1) e = e := fun e => if_pos a0
  simp only [D2GDR0R0]
  ddk

theorem D2GDR0R1_d0 (t p r0 r1 r2 : ℝ) (h0 : 0 < r0) (h1 : 0 < (r1 + r2) / 4) (h2 : 0 < 1 - r0 - r1 / 4 - r2 / 2) (h3 : 0 < r2 / 4) (h4 : 0 < (r1 + r2) / 4 - r2 / 4) :
    HasDerivAt (fun r0 => D2GDR0R1 t p r0 r1 r2 r0 ((r1 + r2) / 4) (1 - r0 - r1 / 4 - r2 / 2) (r2 / 4)) (D3GDR0R0R1 t p r0 r1 r2 r0 ((r1 + r2) / 4) (1 - r0 - r1 / 4 - r2 / 2) (r2 / 4)) r0 := by
  have n0 := h0.ne'
  have n1 := h1.ne'
  have n2 := h2.ne'
  have n3 := h3.ne'
  have n4 := h4.ne'
  have a0 : 0 < r1 := by linarith
  have a1 := a0.ne'
  have a2 : r2 ≠ 0 := by intro h; rw [h] at h3; norm_num at h3
  have e0 : (r1 + r2) / 4 - r2 / 4 = r1 / 4 := by ring
  have e1 : ∀ e : ℝ, orMax r1 e = e := fun e => if_pos a0
  simp only [D2GDR0R1, D3GDR0R0R1]
  refine HasDerivAt.congr_deriv (by hdk) ?_
  all_goals try simp only [e0, e1]
  all_goals try generalize 1 - r0 - r1 / 4 - r2 / 2 = y at n2 ⊢
  all_goals first | ring1 | (field_simp; done) | (field_simp; ring1)

theorem D2GDR0R1_d1 (t p r0 r1 r2 : ℝ) (h0 : 0 < r0) (h1 : 0 < (r1 + r2) / 4) (h2 : 0 < 1 - r0 - r1 / 4 - r2 / 2) (h3 : 0 < r2 / 4) (h4 : 0 < (r1 + r2) / 4 - r2 / 4) :
    HasDerivAt (fun r1 => D2GDR0R1 t p r0 r1 r2 r0 ((r1 + r2) / 4) (1 - r0 - r1 / 4 - r2 / 2) (r2 / 4)) (D3GDR0R1R1 t p r0 r1 r2 r0 ((r1 + r2) / 4) (1 - r0 - r1 / 4 - r2 / 2) (r2 / 4)) r1 := by
  have n0 := h0.ne'
  have n1 := h1.ne'
  have n2 := h2.ne'
  have n3 := h3.ne'
  have n4 := h4.ne'
  have a0 : 0 < r1 := by linarith
  have a1 := a0.ne'
  have a2 : r2 ≠ 0 := by intro h; rw [h] at h3; norm_num at h3
  have e0 : (r1 + r2) / 4 - r2 / 4 = r1 / 4 := by ring
  have e1 : ∀ e : ℝ, orMax r1 e = e := fun e => if_pos a0
  simp only [D2GDR0R1, D3GDR0R1R1]
  refine HasDerivAt.congr_deriv (by hdk) ?_
  all_goals try simp only [e0, e1]
  all_goals try generalize 1 - r0 - r1 / 4 - r2 / 2 = y at n2 ⊢
  all_goals first | ring1 | (field_simp; done) | (field_simp; ring1)

theorem D2GDR0R1_d2 (t p r0 r1 r2 : ℝ) (h0 : 0 < r0) (h1 : 0 < (r1 + r2) / 4) (h2 : 0 < 1 - r0 - r1 / 4 - r2 / 2) (h3 : 0 < r2 / 4) (h4 : 0 < (r1 + r2) / 4 - r2 / 4) :
    HasDerivAt (fun r2 => D2GDR0R1 t p r0 r1 r2 r0 ((r1 + r2) / 4) (1 - r0 - r1 / 4 - r2 / 2) (r2 / 4)) (D3GDR0R1R2 t p r0 r1 r2 r0 ((r1 + r2) / 4) (1 - r0 - r1 / 4 - r2 / 2) (r2 / 4)) r2 := by
  have n0 := h0.ne'
  have n1 := h1.ne'
  have n2 := h2.ne'
  have n3 := h3.ne'
  have n4 := h4.ne'
  have a0 : 0 < r1 := by linarith
  have a1 := a0.ne'
  have a2 : r2 ≠ 0 := by intro h; rw [h] at h3; norm_num at h3
  have e0 : (r1 + r2) / 4 - r2 / 4 = r1 / 4 := by ring
  have e1 : ∀ e : ℝ, orMax r1 e = e := fun e => if_pos a0
  simp only [D2GDR0R1, D3GDR0R1R2]
  refine HasDerivAt.congr_deriv (by hdk) ?_
  all_goals try simp only [e0, e1]
  all_goals try generalize 1 - r0 - r1 / 4 - r2 / 2 = y at n2 ⊢
  all_goals first | ring1 | (field_simp; done) | (field_simp; ring1)

theorem D2GDR0R1_diff (t p : ℝ) (r : Fin 3 → ℝ) (h0 : 0 < r 0) (h1 : 0 < (r 1 + r 2) / 4) (h2 : 0 < 1 - r 0 - r 1 / 4 - r 2 / 2) (h3 : 0 < r 2 / 4) (h4 : 0 < (r 1 + r 2) / 4 - r 2 / 4) :
    DifferentiableAt ℝ (fun r : Fin 3 → ℝ => D2GDR0R1 t p (r 0) (r 1) (r 2) (r 0) ((r 1 + r 2) / 4) (1 - r 0 - r 1 / 4 - r 2 / 2) (r 2 / 4)) r := by
  have n0 := h0.ne'
  have n1 := h1.ne'
  have n2 := h2.ne'
  have n3 := h3.ne'
  have n4 := h4.ne'
  have a0 : 0 < r 1 := by linarith
  have a1 := a0.ne'
  have a2 : r 2 ≠ 0 := by intro h; rw [h] at h3; norm_num at h3
  have e0 : (r 1 + r 2) / 4 - r 2 / 4 = r 1 / 4 := by ring
  have e1 : ∀ e : ℝ, orMax (r 1) e = e := fun e => if_pos a0
  simp only [D2GDR0R1]
  ddk

theorem D2GDR0R2_d0 (t p r0 r1 r2 : ℝ) (h0 : 0 < r0) (h1 : 0 < (r1 + r2) / 4) (h2 : 0 < 1 - r0 - r1 / 4 - r2 / 2) (h3 : 0 < r2 / 4) (h4 : 0 < (r1 + r2) / 4 - r2 / 4) :
    HasDerivAt (fun r0 => D2GDR0R2 t p r0 r1 r2 r0 ((r1 + r2) / 4) (1 - r0 - r1 / 4 - r2 / 2) (r2 / 4)) (D3GDR0R0R2 t p r0 r1 r2 r0 ((r1 + r2) / 4) (1 - r0 - r1 / 4 - r2 / 2) (r2 / 4)) r0 := by
  have n0 := h0.ne'
  have n1 := h1.ne'
  have n2 := h2.ne'
  have n3 := h3.ne'
  have n4 := h4.ne'
  have a0 : 0 < r1 := by linarith
  have a1 := a0.ne'
  have a2 : r2 ≠ 0 := by intro h; rw [h] at h3; norm_num at h3
  have e0 : (r1 + r2) / 4 - r2 / 4 = r1 / 4 := by ring
  have e1 : ∀ e : ℝ, orMax r1 e = e := fun e => if_pos a0
  simp only [D2GDR0R2, D3GDR0R0R2]
  refine HasDerivAt.congr_deriv (by hdk) ?_
  all_goals try simp only [e0, e1]
  all_goals try generalize 1 - r0 - r1 / 4 - r2 / 2 = y at n2 ⊢
  all_goals first | ring1 | (field_simp; done) | (field_simp; ring1)

theorem D2GDR0R2_d1 (t p r0 r1 r2 : ℝ) (h0 : 0 < r0) (h1 : 0 < (r1 + r2) / 4) (h2 : 0 < 1 - r0 - r1 / 4 - r2 / 2) (h3 : 0 < r2 / 4) (h4 : 0 < (r1 + r2) / 4 - r2 / 4) :
    HasDerivAt (fun r1 => D2GDR0R2 t p r0 r1 r2 r0 ((r1 + r2) / 4) (1 - r0 - r1 / 4 - r2 / 2) (r2 / 4)) (D3GDR0R1R2 t p r0 r1 r2 r0 ((r1 + r2) / 4) (1 - r0 - r1 / 4 - r2 / 2) (r2 / 4)) r1 := by
  have n0 := h0.ne'
  have n1 := h1.ne'
  have n2 := h2.ne'
  have n3 := h3.ne'
  have n4 := h4.ne'
  have a0 : 0 < r1 := by linarith
  have a1 := a0.ne'
  have a2 : r2 ≠ 0 := by intro h; rw [h] at h3; norm_num at h3
  have e0 : (r1 + r2) / 4 - r2 / 4 = r1 / 4 := by ring
  have e1 : ∀ e : ℝ, orMax r1 e = e := fun e => if_pos a0
  simp only [D2GDR0R2, D3GDR0R1R2]
  refine HasDerivAt.congr_deriv (by hdk) ?_
  all_goals try simp only [e0, e1]
  all_goals try generalize 1 - r0 - r1 / 4 - r2 / 2 = y at n2 ⊢
  all_goals first | ring1 | (field_simp; done) | (field_simp; ring1)

theorem D2GDR0R2_d2 (t p r0 r1 r2 : ℝ) (h0 : 0 < r0) (h1 : 0 < (r1 + r2) / 4) (h2 : 0 < 1 - r0 - r1 / 4 - r2 / 2) (h3 : 0 < r2 / 4) (h4 : 0 < (r1 + r2) / 4 - r2 / 4) :
    HasDerivAt (fun r2 => D2GDR0R2 t p r0 r1 r2 r0 ((r1 + r2) / 4) (1 - r0 - r1 / 4 - r2 / 2) (r2 / 4)) (D3GDR0R2R2 t p r0 r1 r2 r0 ((r1 + r2) / 4) (1 - r0 - r1 / 4 - r2 / 2) (r2 / 4)) r2 := by
  have n0 := h0.ne'
  have n1 := h1.ne'
  have n2 := h2.ne'
  have n3 := h3.ne'
  have n4 := h4.ne'
  have a0 : 0 < r1 := by linarith
  have a1 := a0.ne'
  have a2 : r2 ≠ 0 := by intro h; rw [h] at h3; norm_num at h3
  have e0 : (r1 + r2) / 4 - r2 / 4 = r1 / 4 := by ring
  have e1 : ∀ e : ℝ, orMax r1 e = e := fun e => if_pos a0
  simp only [D2GDR0R2, D3GDR0R2R2]
  refine HasDerivAt.congr_deriv (by hdk) ?_
  all_goals try simp only [e0, e1]
  all_goals try generalize 1 - r0 - r1 / 4 - r2 / 2 = y at n2 ⊢
  all_goals first | ring1 | (field_simp; done) | (field_simp; ring1)

theorem D2GDR0R2_diff (t p : ℝ) (r : Fin 3 → ℝ) (h0 : 0 < r 0) (h1 : 0 < (r 1 + r 2) / 4) (h2 : 0 < 1 - r 0 - r 1 / 4 - r 2 / 2) (h3 : 0 < r 2 / 4) (h4 : 0 < (r 1 + r 2) / 4 - r 2 / 4) :
    DifferentiableAt ℝ (fun r : Fin 3 → ℝ => D2GDR0R2 t p (r 0) (r 1) (r 2) (r 0) ((r 1 + r 2) / 4) (1 - r 0 - r 1 / 4 - r 2 / 2) (r 2 / 4)) r := by
  have n0 := h0.ne'
  have n1 := h1.ne'
  have n2 := h2.ne'
  have n3 := h3.ne'
  have n4 := h4.ne'
  have a0 : 0 < r 1 := by linarith
  have a1 := a0.ne'
  have a2 : r 2 ≠ 0 := by intro h; rw [h] at h3; norm_num at h3
  have e0 : (r 1 + r 2) / 4 - r 2 / 4 = r 1 / 4 := by ring
  have e1 : ∀ e : ℝ, orMax (r 1) e = e := fun e => if_pos a0
  simp only [D2GDR0R2]
  ddk

theorem D2GDR1R1_d0 (t p r0 r1 r2 : ℝ) (h0 : 0 < r0) (h1 : 0 < (r1 + r2) / 4) (h2 : 0 < 1 - r0 - r1 / 4 - r2 / 2) (h3 : 0 < r2 / 4) (h4 : 0 < (r1 + r2) / 4 - r2 / 4) :
    HasDerivAt (fun r0 => D2GDR1R1 t p r0 r1 r2 r0 ((r1 + r2) / 4) (1 - r0 - r1 / 4 - r2 / 2) (r2 / 4)) (D3GDR0R1R1 t p r0 r1 r2 r0 ((r1 + r2) / 4) (1 - r0 - r1 / 4 - r2 / 2) (r2 / 4)) r0 := by
  have n0 := h0.ne'
  have n1 := h1.ne'
  have n2 := h2.ne'
  have n3 := h3.ne'
  have n4 := h4.ne'
  have a0 : 0 < r1 := by linarith
  have a1 := a0.ne'
  have a2 : r2 ≠ 0 := by intro h; rw [h] at h3; norm_num at h3
  have e0 : (r1 + r2) / 4 - r2 / 4 = r1 / 4 := by ring
  have e1 : ∀ e : ℝ, orMax r1 e = e := fun e => if_pos a0
  simp only [D2GDR1R1, D3GDR0R1R1]
  refine HasDerivAt.congr_deriv (by hdk) ?_
  all_goals try simp only [e0, e1]
  all_goals try generalize 1 - r0 - r1 / 4 - r2 / 2 = y at n2 ⊢
  all_goals first | ring1 | (field_simp; done) | (field_simp; ring1)

theorem D2GDR1R1_d1 (t p r0 r1 r2 : ℝ) (h0 : 0 < r0) (h1 : 0 < (r1 + r2) / 4) (h2 : 0 < 1 - r0 - r1 / 4 - r2 / 2) (h3 : 0 < r2 / 4) (h4 : 0 < (r1 + r2) / 4 - r2 / 4) :
    HasDerivAt (fun r1 => D2GDR1R1 t p r0 r1 r2 r0 ((r1 + r2) / 4) (1 - r0 - r1 / 4 - r2 / 2) (r2 / 4)) (D3GDR1R1R1 t p r0 r1 r2 r0 ((r1 + r2) / 4) (1 - r0 - r1 / 4 - r2 / 2) (r2 / 4)) r1 := by
  have n0 := h0.ne'
  have n1 := h1.ne'
  have n2 := h2.ne'
  have n3 := h3.ne'
  have n4 := h4.ne'
  have a0 : 0 < r1 := by linarith
  have a1 := a0.ne'
  have a2 : r2 ≠ 0 := by intro h; rw [h] at h3; norm_num at h3
  have e0 : (r1 + r2) / 4 - r2 / 4 = r1 / 4 := by ring
  have e1 : ∀ e : ℝ, orMax r1 e = e := fun e => if_pos a0
  simp only [D2GDR1R1, D3GDR1R1R1]
  refine HasDerivAt.congr_deriv (by hdk) ?_
  all_goals try simp only [e0, e1]
  all_goals try generalize 1 - r0 - r1 / 4 - r2 / 2 = y at n2 ⊢
  all_goals first | ring1 | (field_simp; done) | (field_simp; ring1)

theorem D2GDR1R1_d2 (t p r0 r1 r2 : ℝ) (h0 : 0 < r0) (h1 : 0 < (r1 + r2) / 4) (h2 : 0 < 1 - r0 - r1 / 4 - r2 / 2) (h3 : 0 < r2 / 4) (h4 : 0 < (r1 + r2) / 4 - r2 / 4) :
    HasDerivAt (fun r2 => D2GDR1R1 t p r0 r1 r2 r0 ((r1 + r2) / 4) (1 - r0 - r1 / 4 - r2 / 2) (r2 / 4)) (D3GDR1R1R2 t p r0 r1 r2 r0 ((r1 + r2) / 4) (1 - r0 - r1 / 4 - r2 / 2) (r2 / 4)) r2 := by
  have n0 := h0.ne'
  have n1 := h1.ne'
  have n2 := h2.ne'
  have n3 := h3.ne'
  have n4 := h4.ne'
  have a0 : 0 < r1 := by linarith
  have a1 := a0.ne'
  have a2 : r2 ≠ 0 := by intro h; rw [h] at h3; norm_num at h3
  have e0 : (r1 + r2) / 4 - r2 / 4 = r1 / 4 := by ring
  have e1 : ∀ e : ℝ, orMax r1 e = e := fun e => if_pos a0
  simp only [D2GDR1R1, D3GDR1R1R2]
  refine HasDerivAt.congr_deriv (by hdk) ?_
  all_goals try simp only [e0, e1]
  all_goals try generalize 1 - r0 - r1 / 4 - r2 / 2 = y at n2 ⊢
  all_goals first | ring1 | (field_simp; done) | (field_simp; ring1)

theorem D2GDR1R1_diff (t p : ℝ) (r : Fin 3 → ℝ) (h0 : 0 < r 0) (h1 : 0 < (r 1 + r 2) / 4) (h2 : 0 < 1 - r 0 - r 1 / 4 - r 2 / 2) (h3 : 0 < r 2 / 4) (h4 : 0 < (r 1 + r 2) / 4 - r 2 / 4) :
    DifferentiableAt ℝ (fun r : Fin 3 → ℝ => D2GDR1R1 t p (r 0) (r 1) (r 2) (r 0) ((r 1 + r 2) / 4) (1 - r 0 - r 1 / 4 - r 2 / 2) (r 2 / 4)) r := by
  have n0 := h0.ne'
  have n1 := h1.ne'
  have n2 := h2.ne'
  have n3 := h3.ne'
  have n4 := h4.ne'
  have a0 : 0 < r 1 := by linarith
  have a1 := a0.ne'
  have a2 : r 2 ≠ 0 := by intro h; rw [h] at h3; norm_num at h3
  have e0 : (r 1 + r 2) / 4 - r 2 / 4 = r 1 / 4 := by ring
  have e1 : ∀ e : ℝ, orMax (r 1) e = e := fun e => if_pos a0
  simp only [D2GDR1R1]
  ddk

theorem D2GDR1R2_d0 (t p r0 r1 r2 : ℝ) (h0 : 0 < r0) (h1 : 0 < (r1 + r2) / 4) (h2 : 0 < 1 - r0 - r1 / 4 - r2 / 2) (h3 : 0 < r2 / 4) (h4 : 0 < (r1 + r2) / 4 - r2 / 4) :
    HasDerivAt (fun r0 => D2GDR1R2 t p r0 r1 r2 r0 ((r1 + r2) / 4) (1 - r0 - r1 / 4 - r2 / 2) (r2 / 4)) (D3GDR0R1R2 t p r0 r1 r2 r0 ((r1 + r2) / 4) (1 - r0 - r1 / 4 - r2 / 2) (r2 / 4)) r0 := by
  have n0 := h0.ne'
  have n1 := h1.ne'
  have n2 := h2.ne'
  have n3 := h3.ne'
  have n4 := h4.ne'
  have a0 : 0 < r1 := by linarith
  have a1 := a0.ne'
  have a2 : r2 ≠ 0 := by intro h; rw [h] at h3; norm_num at h3
  have e0 : (r1 + r2) / 4 - r2 / 4 = r1 / 4 := by ring
  have e1 : ∀ e : ℝ, orMax r1 e = e := fun e => if_pos a0
  simp only [D2GDR1R2, D3GDR0R1R2]
  refine HasDerivAt.congr_deriv (by hdk) ?_
  all_goals try simp only [e0, e1]
  all_goals try generalize 1 - r0 - r1 / 4 - r2 / 2 = y at n2 ⊢
  all_goals first | ring1 | (field_simp; done) | (field_simp; ring1)

theorem D2GDR1R2_d1 (t p r0 r1 r2 : ℝ) (h0 : 0 < r0) (h1 : 0 < (r1 + r2) / 4) (h2 : 0 < 1 - r0 - r1 / 4 - r2 / 2) (h3 : 0 < r2 / 4) (h4 : 0 < (r1 + r2) / 4 - r2 / 4) :
    HasDerivAt (fun r1 => D2GDR1R2 t p r0 r1 r2 r0 ((r1 + r2) / 4) (1 - r0 - r1 / 4 - r2 / 2) (r2 / 4)) (D3GDR1R1R2 t p r0 r1 r2 r0 ((r1 + r2) / 4) (1 - r0 - r1 / 4 - r2 / 2) (r2 / 4)) r1 := by
  have n0 := h0.ne'
  have n1 := h1.ne'
  have n2 := h2.ne'
  have n3 := h3.ne'
  have n4 := h4.ne'
  have a0 : 0 < r1 := by linarith
  have a1 := a0.ne'
  have a2 : r2 ≠ 0 := by intro h; rw [h] at h3; norm_num at h3
  have e0 : (r1 + r2) / 4 - r2 / 4 = r1 / 4 := by ring
  have e1 : ∀ e : ℝ, orMax r1 e = e := fun e => if_pos a0
  simp only [D2GDR1R2, D3GDR1R1R2]
  refine HasDerivAt.congr_deriv (by hdk) ?_
  all_goals try simp only [e0, e1]
  all_goals try generalize 1 - r0 - r1 / 4 - r2 / 2 = y at n2 ⊢
  all_goals first | ring1 | (field_simp; done) | (field_simp; ring1)

theorem D2GDR1R2_d2 (t p r0 r1 r2 : ℝ) (h0 : 0 < r0) (h1 : 0 < (r1 + r2) / 4) (h2 : 0 < 1 - r0 - r1 / 4 - r2 / 2) (h3 : 0 < r2 / 4) (h4 : 0 < (r1 + r2) / 4 - r2 / 4) :
    HasDerivAt (fun r2 => D2GDR1R2 t p r0 r1 r2 r0 ((r1 + r2) / 4) (1 - r0 - r1 / 4 - r2 / 2) (r2 / 4)) (D3GDR1R2R2 t p r0 r1 r2 r0 ((r1 + r2) / 4) (1 - r0 - r1 / 4 - r2 / 2) (r2 / 4)) r2 := by
  have n0 := h0.ne'
  have n1 := h1.ne'
  have n2 := h2.ne'
  have n3 := h3.ne'
  have n4 := h4.ne'
  have a0 : 0 < r1 := by linarith
  have a1 := a0.ne'
  have a2 : r2 ≠ 0 := by intro h; rw [h] at h3; norm_num at h3
  have e0 : (r1 + r2) / 4 - r2 / 4 = r1 / 4 := by ring
  have e1 : ∀ e : ℝ, orMax r1 e = e := fun e => if_pos a0
  simp only [D2GDR1R2, D3GDR1R2R2]
  refine HasDerivAt.congr_deriv (by hdk) ?_
  all_goals try simp only [e0, e1]
  all_goals try generalize 1 - r0 - r1 / 4 - r2 / 2 = y at n2 ⊢
  all_goals first | ring1 | (field_simp; done) | (field_simp; ring1)

theorem D2GDR1R2_diff (t p : ℝ) (r : Fin 3 → ℝ) (h0 : 0 < r 0) (h1 : 0 < (r 1 + r 2) / 4) (h2 : 0 < 1 - r 0 - r 1 / 4 - r 2 / 2) (h3 : 0 < r 2 / 4) (h4 : 0 < (r 1 + r 2) / 4 - r 2 / 4) :
    DifferentiableAt ℝ (fun r : Fin 3 → ℝ => D2GDR1R2 t p (r 0) (r 1) (r 2) (r 0) ((r 1 + r 2) / 4) (1 - r 0 - r 1 / 4 - r 2 / 2) (r 2 / 4)) r := by
  have n0 := h0.ne'
  have n1 := h1.ne'
  have n2 := h2.ne'
  have n3 := h3.ne'
  have n4 := h4.ne'
  have a0 : 0 < r 1 := by linarith
  have a1 := a0.ne'
  have a2 : r 2 ≠ 0 := by intro h; rw [h] at h3; norm_num at h3
  have e0 : (r 1 + r 2) / 4 - r 2 / 4 = r 1 / 4 := by ring
  have e1 : ∀ e : ℝ, orMax (r 1) e = e := fun e => if_pos a0
  simp only [D2GDR1R2]
  ddk

theorem D2GDR2R2_d0 (t p r0 r1 r2 : ℝ) (h0 : 0 < r0) (h1 : 0 < (r1 + r2) / 4) (h2 : 0 < 1 - r0 - r1 / 4 - r2 / 2) (h3 : 0 < r2 / 4) (h4 : 0 < (r1 + r2) / 4 - r2 / 4) :
    HasDerivAt (fun r0 => D2GDR2R2 t p r0 r1 r2 r0 ((r1 + r2) / 4) (1 - r0 - r1 / 4 - r2 / 2) (r2 / 4)) (D3GDR0R2R2 t p r0 r1 r2 r0 ((r1 + r2) / 4) (1 - r0 - r1 / 4 - r2 / 2) (r2 / 4)) r0 := by
  have n0 := h0.ne'
  have n1 := h1.ne'
  have n2 := h2.ne'
  have n3 := h3.ne'
  have n4 := h4.ne'
  have a0 : 0 < r1 := by linarith
  have a1 := a0.ne'
  have a2 : r2 ≠ 0 := by intro h; rw [h] at h3; norm_num at h3
  have e0 : (r1 + r2) / 4 - r2 / 4 = r1 / 4 := by ring
  have e1 : ∀ e : ℝ, orMax r1 e = e := fun e => if_pos a0
  simp only [D2GDR2R2, D3GDR0R2R2]
  refine HasDerivAt.congr_deriv (by hdk) ?_
  all_goals try simp only [e0, e1]
  all_goals try generalize 1 - r0 - r1 / 4 - r2 / 2 = y at n2 ⊢
  all_goals first | ring1 | (field_simp; done) | (field_simp; ring1)

theorem D2GDR2R2_d1 (t p r0 r1 r2 : ℝ) (h0 : 0 < r0) (h1 : 0 < (r1 + r2) / 4) (h2 : 0 < 1 - r0 - r1 / 4 - r2 / 2) (h3 : 0 < r2 / 4) (h4 : 0 < (r1 + r2) / 4 - r2 / 4) :
    HasDerivAt (fun r1 => D2GDR2R2 t p r0 r1 r2 r0 ((r1 + r2) / 4) (1 - r0 - r1 / 4 - r2 / 2) (r2 / 4)) (D3GDR1R2R2 t p r0 r1 r2 r0 ((r1 + r2) / 4) (1 - r0 - r1 / 4 - r2 / 2) (r2 / 4)) r1 := by
  have n0 := h0.ne'
  have n1 := h1.ne'
  have n2 := h2.ne'
  have n3 := h3.ne'
  have n4 := h4.ne'
  have a0 : 0 < r1 := by linarith
  have a1 := a0.ne'
  have a2 : r2 ≠ 0 := by intro h; rw [h] at h3; norm_num at h3
  have e0 : (r1 + r2) / 4 - r2 / 4 = r1 / 4 := by ring
  have e1 : ∀ e : ℝ, orMax r1 e = e := fun e => if_pos a0
  simp only [D2GDR2R2, D3GDR1R2R2]
  refine HasDerivAt.congr_deriv (by hdk) ?_
  all_goals try simp only [e0, e1]
  all_goals try generalize 1 - r0 - r1 / 4 - r2 / 2 = y at n2 ⊢
  all_goals first | ring1 | (field_simp; done) | (field_simp; ring1)

theorem D2GDR2R2_d2 (t p r0 r1 r2 : ℝ) (h0 : 0 < r0) (h1 : 0 < (r1 + r2) / 4) (h2 : 0 < 1 - r0 - r1 / 4 - r2 / 2) (h3 : 0 < r2 / 4) (h4 : 0 < (r1 + r2) / 4 - r2 / 4) :
    HasDerivAt (fun r2 => D2GDR2R2 t p r0 r1 r2 r0 ((r1 + r2) / 4) (1 - r0 - r1 / 4 - r2 / 2) (r2 / 4)) (D3GDR2R2R2 t p r0 r1 r2 r0 ((r1 + r2) / 4) (1 - r0 - r1 / 4 - r2 / 2) (r2 / 4)) r2 := by
  have n0 := h0.ne'
  have n1 := h1.ne'
  have n2 := h2.ne'
  have n3 := h3.ne'
  have n4 := h4.ne'
  have a0 : 0 < r1 := by linarith
  have a1 := a0.ne'
  have a2 : r2 ≠ 0 := by intro h; rw [h] at h3; norm_num at h3
  have e0 : (r1 + r2) / 4 - r2 / 4 = r1 / 4 := by ring
  have e1 : ∀ e : ℝ, orMax r1 e = e := fun e => if_pos a0
  simp only [D2GDR2R2, D3GDR2R2R2]
  refine HasDerivAt.congr_deriv (by hdk) ?_
  all_goals try simp only [e0, e1]
  all_goals try generalize 1 - r0 - r1 / 4 - r2 / 2 = y at n2 ⊢
  all_goals first | ring1 | (field_simp; done) | (field_simp; ring1)

theorem D2GDR2R2_diff (t p : ℝ) (r : Fin 3 → ℝ) (h0 : 0 < r 0) (h1 : 0 < (r 1 + r 2) / 4) (h2 : 0 < 1 - r 0 - r 1 / 4 - r 2 / 2) (h3 : 0 < r 2 / 4) (h4 : 0 < (r 1 + r 2) / 4 - r 2 / 4) :
    DifferentiableAt ℝ (fun r : Fin 3 → ℝ => D2GDR2R2 t p (r 0) (r 1) (r 2) (r 0) ((r 1 + r 2) / 4) (1 - r 0 - r 1 / 4 - r 2 / 2) (r 2 / 4)) r := by
  have n0 := h0.ne'
  have n1 := h1.ne'
  have n2 := h2.ne'
  have n3 := h3.ne'
  have n4 := h4.ne'
  have a0 : 0 < r 1 := by linarith
  have a1 := a0.ne'
  have a2 : r 2 ≠ 0 := by intro h; rw [h] at h3; norm_num at h3
  have e0 : (r 1 + r 2) / 4 - r 2 / 4 = r 1 / 4 := by ring
  have e1 : ∀ e : ℝ, orMax (r 1) e = e := fun e => if_pos a0
  simp only [D2GDR2R2]
  ddk

theorem S_d0 (t p r0 r1 r2 : ℝ) (h0 : 0 < r0) (h1 : 0 < (r1 + r2) / 4) (h2 : 0 < 1 - r0 - r1 / 4 - r2 / 2) (h3 : 0 < r2 / 4) (h4 : 0 < (r1 + r2) / 4 - r2 / 4) :
    HasDerivAt (fun r0 => S t p r0 r1 r2 r0 ((r1 + r2) / 4) (1 - r0 - r1 / 4 - r2 / 2) (r2 / 4)) (-(D2GDR0DT t p r0 r1 r2 r0 ((r1 + r2) / 4) (1 - r0 - r1 / 4 - r2 / 2) (r2 / 4))) r0 := by
  have n0 := h0.ne'
  have n1 := h1.ne'
  have n2 := h2.ne'
  have n3 := h3.ne'
  have n4 := h4.ne'
  have a0 : 0 < r1 := by linarith
  have a1 := a0.ne'
  have a2 : r2 ≠ 0 := by intro h; rw [h] at h3; norm_num at h3
  have e0 : (r1 + r2) / 4 - r2 / 4 = r1 / 4 := by ring
  have e1 : ∀ e : ℝ, orMax r1 e = e := fun e => if_pos a0
  simp only [S, D2GDR0DT]
  refine HasDerivAt.congr_deriv (by hdk) ?_
  all_goals try simp only [e0, e1]
  all_goals try generalize 1 - r0 - r1 / 4 - r2 / 2 = y at n2 ⊢
  all_goals first | ring1 | (field_simp; done) | (field_simp; ring1)

theorem S_d1 (t p r0 r1 r2 : ℝ) (h0 : 0 < r0) (h1 : 0 < (r1 + r2) / 4) (h2 : 0 < 1 - r0 - r1 / 4 - r2 / 2) (h3 : 0 < r2 / 4) (h4 : 0 < (r1 + r2) / 4 - r2 / 4) :
    HasDerivAt (fun r1 => S t p r0 r1 r2 r0 ((r1 + r2) / 4) (1 - r0 - r1 / 4 - r2 / 2) (r2 / 4)) (-(D2GDR1DT t p r0 r1 r2 r0 ((r1 + r2) / 4) (1 - r0 - r1 / 4 - r2 / 2) (r2 / 4))) r1 := by
  have n0 := h0.ne'
  have n1 := h1.ne'
  have n2 := h2.ne'
  have n3 := h3.ne'
  have n4 := h4.ne'
  have a0 : 0 < r1 := by linarith
  have a1 := a0.ne'
  have a2 : r2 ≠ 0 := by intro h; rw [h] at h3; norm_num at h3
  have e0 : (r1 + r2) / 4 - r2 / 4 = r1 / 4 := by ring
  have e1 : ∀ e : ℝ, orMax r1 e = e := fun e => if_pos a0
  simp only [S, D2GDR1DT]
  refine HasDerivAt.congr_deriv (by hdk) ?_
  all_goals try simp only [e0, e1]
  all_goals try generalize 1 - r0 - r1 / 4 - r2 / 2 = y at n2 ⊢
  all_goals first | ring1 | (field_simp; done) | (field_simp; ring1)

theorem S_d2 (t p r0 r1 r2 : ℝ) (h0 : 0 < r0) (h1 : 0 < (r1 + r2) / 4) (h2 : 0 < 1 - r0 - r1 / 4 - r2 / 2) (h3 : 0 < r2 / 4) (h4 : 0 < (r1 + r2) / 4 - r2 / 4) :
    HasDerivAt (fun r2 => S t p r0 r1 r2 r0 ((r1 + r2) / 4) (1 - r0 - r1 / 4 - r2 / 2) (r2 / 4)) (-(D2GDR2DT t p r0 r1 r2 r0 ((r1 + r2) / 4) (1 - r0 - r1 / 4 - r2 / 2) (r2 / 4))) r2 := by
  have n0 := h0.ne'
  have n1 := h1.ne'
  have n2 := h2.ne'
  have n3 := h3.ne'
  have n4 := h4.ne'
  have a0 : 0 < r1 := by linarith
  have a1 := a0.ne'
  have a2 : r2 ≠ 0 := by intro h; rw [h] at h3; norm_num at h3
  have e0 : (r1 + r2) / 4 - r2 / 4 = r1 / 4 := by ring
  have e1 : ∀ e : ℝ, orMax r1 e = e := fun e => if_pos a0
  simp only [S, D2GDR2DT]
  refine HasDerivAt.congr_deriv (by hdk) ?_
  all_goals try simp only [e0, e1]
  all_goals try generalize 1 - r0 - r1 / 4 - r2 / 2 = y at n2 ⊢
  all_goals first | ring1 | (field_simp; done) | (field_simp; ring1)

theorem S_diff (t p : ℝ) (r : Fin 3 → ℝ) (h0 : 0 < r 0) (h1 : 0 < (r 1 + r 2) / 4) (h2 : 0 < 1 - r 0 - r 1 / 4 - r 2 / 2) (h3 : 0 < r 2 / 4) (h4 : 0 < (r 1 + r 2) / 4 - r 2 / 4) :
    DifferentiableAt ℝ (fun r : Fin 3 → ℝ => S t p (r 0) (r 1) (r 2) (r 0) ((r 1 + r 2) / 4) (1 - r 0 - r 1 / 4 - r 2 / 2) (r 2 / 4)) r := by
  have n0 := h0.ne'
  have n1 := h1.ne'
  have n2 := h2.ne'
  have n3 := h3.ne'
  have n4 := h4.ne'
  have a0 : 0 < r 1 := by linarith
  have a1 := a0.ne'
  have a2 : r 2 ≠ 0 := by intro h; rw [h] at h3; norm_num at h3
  have e0 : (r 1 + r 2) / 4 - r 2 / 4 = r 1 / 4 := by ring
  have e1 : ∀ e : ℝ, orMax (r 1) e = e := fun e => if_pos a0
  simp only [S]
  ddk

theorem D2GDR0DT_d0 (t p r0 r1 r2 : ℝ) (h0 : 0 < r0) (h1 : 0 < (r1 + r2) / 4) (h2 : 0 < 1 - r0 - r1 / 4 - r2 / 2) (h3 : 0 < r2 / 4) (h4 : 0 < (r1 + r2) / 4 - r2 / 4) :
    HasDerivAt (fun r0 => D2GDR0DT t p r0 r1 r2 r0 ((r1 + r2) / 4) (1 - r0 - r1 / 4 - r2 / 2) (r2 / 4)) (D3GDR0R0DT t p r0 r1 r2 r0 ((r1 + r2) / 4) (1 - r0 - r1 / 4 - r2 / 2) (r2 / 4)) r0 := by
  have n0 := h0.ne'
  have n1 := h1.ne'
  have n2 := h2.ne'
  have n3 := h3.ne'
  have n4 := h4.ne'
  have a0 : 0 < r1 := by linarith
  have a1 := a0.ne'
  have a2 : r2 ≠ 0 := by intro h; rw [h] at h3; norm_num at h3
  have e0 : (r1 + r2) / 4 - r2 / 4 = r1 / 4 := by ring
  have e1 : ∀ e : ℝ, orMax r1 e = e := fun e => if_pos a0
  simp only [D2GDR0DT, D3GDR0R0DT]
  refine HasDerivAt.congr_deriv (by hdk) ?_
  all_goals try simp only [e0, e1]
  all_goals try generalize 1 - r0 - r1 / 4 - r2 / 2 = y at n2 ⊢
  all_goals first | ring1 | (field_simp; done) | (field_simp; ring1)

theorem D2GDR0DT_d1 (t p r0 r1 r2 : ℝ) (h0 : 0 < r0) (h1 : 0 < (r1 + r2) / 4) (h2 : 0 < 1 - r0 - r1 / 4 - r2 / 2) (h3 : 0 < r2 / 4) (h4 : 0 < (r1 + r2) / 4 - r2 / 4) :
    HasDerivAt (fun r1 => D2GDR0DT t p r0 r1 r2 r0 ((r1 + r2) / 4) (1 - r0 - r1 / 4 - r2 / 2) (r2 / 4)) (D3GDR0R1DT t p r0 r1 r2 r0 ((r1 + r2) / 4) (1 - r0 - r1 / 4 - r2 / 2) (r2 / 4)) r1 := by
  have n0 := h0.ne'
  have n1 := h1.ne'
  have n2 := h2.ne'
  have n3 := h3.ne'
  have n4 := h4.ne'
  have a0 : 0 < r1 := by linarith
  have a1 := a0.ne'
  have a2 : r2 ≠ 0 := by intro h; rw [h] at h3; norm_num at h3
  have e0 : (r1 + r2) / 4 - r2 / 4 = r1 / 4 := by ring
  have e1 : ∀ e : ℝ, orMax r1 e = e := fun e => if_pos a0
  simp only [D2GDR0DT, D3GDR0R1DT]
  refine HasDerivAt.congr_deriv (by hdk) ?_
  all_goals try simp only [e0, e1]
  all_goals try generalize 1 - r0 - r1 / 4 - r2 / 2 = y at n2 ⊢
  all_goals first | ring1 | (field_simp; done) | (field_simp; ring1)

theorem D2GDR0DT_d2 (t p r0 r1 r2 : ℝ) (h0 : 0 < r0) (h1 : 0 < (r1 + r2) / 4) (h2 : 0 < 1 - r0 - r1 / 4 - r2 / 2) (h3 : 0 < r2 / 4) (h4 : 0 < (r1 + r2) / 4 - r2 / 4) :
    HasDerivAt (fun r2 => D2GDR0DT t p r0 r1 r2 r0 ((r1 + r2) / 4) (1 - r0 - r1 / 4 - r2 / 2) (r2 / 4)) (D3GDR0R2DT t p r0 r1 r2 r0 ((r1 + r2) / 4) (1 - r0 - r1 / 4 - r2 / 2) (r2 / 4)) r2 := by
  have n0 := h0.ne'
  have n1 := h1.ne'
  have n2 := h2.ne'
  have n3 := h3.ne'
  have n4 := h4.ne'
  have a0 : 0 < r1 := by linarith
  have a1 := a0.ne'
  have a2 : r2 ≠ 0 := by intro h; rw [h] at h3; norm_num at h3
  have e0 : (r1 + r2) / 4 - r2 / 4 = r1 / 4 := by ring
  have e1 : ∀ e : ℝ, orMax r1 e = e := fun e => if_pos a0
  simp only [D2GDR0DT, D3GDR0R2DT]
  refine HasDerivAt.congr_deriv (by hdk) ?_
  all_goals try simp only [e0, e1]
  all_goals try generalize 1 - r0 - r1 / 4 - r2 / 2 = y at n2 ⊢
  all_goals first | ring1 | (field_simp; done) | (field_simp; ring1)

theorem D2GDR0DT_diff (t p : ℝ) (r : Fin 3 → ℝ) (h0 : 0 < r 0) (h1 : 0 < (r 1 + r 2) / 4) (h2 : 0 < 1 - r 0 - r 1 / 4 - r 2 / 2) (h3 : 0 < r 2 / 4) (h4 : 0 < (r 1 + r 2) / 4 - r 2 / 4) :
    DifferentiableAt ℝ (fun r : Fin 3 → ℝ => D2GDR0DT t p (r 0) (r 1) (r 2) (r 0) ((r 1 + r 2) / 4) (1 - r 0 - r 1 / 4 - r 2 / 2) (r 2 / 4)) r := by
  have n0 := h0.ne'
  have n1 := h1.ne'
  have n2 := h2.ne'
  have n3 := h3.ne'
  have n4 := h4.ne'
  have a0 : 0 < r 1 := by linarith
  have a1 := a0.ne'
  have a2 : r 2 ≠ 0 := by intro h; rw [h] at h3; norm_num at h3
  have e0 : (r 1 + r 2) / 4 - r 2 / 4 = r 1 / 4 := by ring
  have e1 : ∀ e : ℝ, orMax (r 1) e = e := fun e => if_pos a0
  simp only [D2GDR0DT]
  ddk

theorem D2GDR1DT_d0 (t p r0 r1 r2 : ℝ) (h0 : 0 < r0) (h1 : 0 < (r1 + r2) / 4) (h2 : 0 < 1 - r0 - r1 / 4 - r2 / 2) (h3 : 0 < r2 / 4) (h4 : 0 < (r1 + r2) / 4 - r2 / 4) :
    HasDerivAt (fun r0 => D2GDR1DT t p r0 r1 r2 r0 ((r1 + r2) / 4) (1 - r0 - r1 / 4 - r2 / 2) (r2 / 4)) (D3GDR0R1DT t p r0 r1 r2 r0 ((r1 + r2) / 4) (1 - r0 - r1 / 4 - r2 / 2) (r2 / 4)) r0 := by
  have n0 := h0.ne'
  have n1 := h1.ne'
  have n2 := h2.ne'
  have n3 := h3.ne'
  have n4 := h4.ne'
  have a0 : 0 < r1 := by linarith
  have a1 := a0.ne'
  have a2 : r2 ≠ 0 := by intro h; rw [h] at h3; norm_num at h3
  have e0 : (r1 + r2) / 4 - r2 / 4 = r1 / 4 := by ring
  have e1 : ∀ e : ℝ, orMax r1 e = e := fun e => if_pos a0
  simp only [D2GDR1DT, D3GDR0R1DT]
  refine HasDerivAt.congr_deriv (by hdk) ?_
  all_goals try simp only [e0, e1]
  all_goals try generalize 1 - r0 - r1 / 4 - r2 / 2 = y at n2 ⊢
  all_goals first | ring1 | (field_simp; done) | (field_simp; ring1)

theorem D2GDR1DT_d1 (t p r0 r1 r2 : ℝ) (h0 : 0 < r0) (h1 : 0 < (r1 + r2) / 4) (h2 : 0 < 1 - r0 - r1 / 4 - r2 / 2) (h3 : 0 < r2 / 4) (h4 : 0 < (r1 + r2) / 4 - r2 / 4) :
    HasDerivAt (fun r1 => D2GDR1DT t p r0 r1 r2 r0 ((r1 + r2) / 4) (1 - r0 - r1 / 4 - r2 / 2) (r2 / 4)) (D3GDR1R1DT t p r0 r1 r2 r0 ((r1 + r2) / 4) (1 - r0 - r1 / 4 - r2 / 2) (r2 / 4)) r1 := by
  have n0 := h0.ne'
  have n1 := h1.ne'
  have n2 := h2.ne'
  have n3 := h3.ne'
  have n4 := h4.ne'
  have a0 : 0 < r1 := by linarith
  have a1 := a0.ne'
  have a2 : r2 ≠ 0 := by intro h; rw [h] at h3; norm_num at h3
  have e0 : (r1 + r2) / 4 - r2 / 4 = r1 / 4 := by ring
  have e1 : ∀ e : ℝ, orMax r1 e = e := fun e => if_pos a0
  simp only [D2GDR1DT, D3GDR1R1DT]
  refine HasDerivAt.congr_deriv (by hdk) ?_
  all_goals try simp only [e0, e1]
  all_goals try generalize 1 - r0 - r1 / 4 - r2 / 2 = y at n2 ⊢
  all_goals first | ring1 | (field_simp; done) | (field_simp; ring1)

theorem D2GDR1DT_d2 (t p r0 r1 r2 : ℝ) (h0 : 0 < r0) (h1 : 0 < (r1 + r2) / 4) (h2 : 0 < 1 - r0 - r1 / 4 - r2 / 2) (h3 : 0 < r2 / 4) (h4 : 0 < (r1 + r2) / 4 - r2 / 4) :
    HasDerivAt (fun r2 => D2GDR1DT t p r0 r1 r2 r0 ((r1 + r2) / 4) (1 - r0 - r1 / 4 - r2 / 2) (r2 / 4)) (D3GDR1R2DT t p r0 r1 r2 r0 ((r1 + r2) / 4) (1 - r0 - r1 / 4 - r2 / 2) (r2 / 4)) r2 := by
  have n0 := h0.ne'
  have n1 := h1.ne'
  have n2 := h2.ne'
  have n3 := h3.ne'
  have n4 := h4.ne'
  have a0 : 0 < r1 := by linarith
  have a1 := a0.ne'
  have a2 : r2 ≠ 0 := by intro h; rw [h] at h3; norm_num at h3
  have e0 : (r1 + r2) / 4 - r2 / 4 = r1 / 4 := by ring
  have e1 : ∀ e : ℝ, orMax r1 e = e := fun e => if_pos a0
  simp only [D2GDR1DT, D3GDR1R2DT]
  refine HasDerivAt.congr_deriv (by hdk) ?_
  all_goals try simp only [e0, e1]
  all_goals try generalize 1 - r0 - r1 / 4 - r2 / 2 = y at n2 ⊢
  all_goals first | ring1 | (field_simp; done) | (field_simp; ring1)

theorem D2GDR1DT_diff (t p : ℝ) (r : Fin 3 → ℝ) (h0 : 0 < r 0) (h1 : 0 < (r 1 + r 2) / 4) (h2 : 0 < 1 - r 0 - r 1 / 4 - r 2 / 2) (h3 : 0 < r 2 / 4) (h4 : 0 < (r 1 + r 2) / 4 - r 2 / 4) :
    DifferentiableAt ℝ (fun r : Fin 3 → ℝ => D2GDR1DT t p (r 0) (r 1) (r 2) (r 0) ((r 1 + r 2) / 4) (1 - r 0 - r 1 / 4 - r 2 / 2) (r 2 / 4)) r := by
  have n0 := h0.ne'
  have n1 := h1.ne'
  have n2 := h2.ne'
  have n3 := h3.ne'
  have n4 := h4.ne'
  have a0 : 0 < r 1 := by linarith
  have a1 := a0.ne'
  have a2 : r 2 ≠ 0 := by intro h; rw [h] at h3; norm_num at h3
  have e0 : (r 1 + r 2) / 4 - r 2 / 4 = r 1 / 4 := by ring
  have e1 : ∀ e : ℝ, orMax (r 1) e = e := fun e => if_pos a0
  simp only [D2GDR1DT]
  ddk

theorem D2GDR2DT_d0 (t p r0 r1 r2 : ℝ) (h0 : 0 < r0) (h1 : 0 < (r1 + r2) / 4) (h2 : 0 < 1 - r0 - r1 / 4 - r2 / 2) (h3 : 0 < r2 / 4) (h4 : 0 < (r1 + r2) / 4 - r2 / 4) :
    HasDerivAt (fun r0 => D2GDR2DT t p r0 r1 r2 r0 ((r1 + r2) / 4) (1 - r0 - r1 / 4 - r2 / 2) (r2 / 4)) (D3GDR0R2DT t p r0 r1 r2 r0 ((r1 + r2) / 4) (1 - r0 - r1 / 4 - r2 / 2) (r2 / 4)) r0 := by
  have n0 := h0.ne'
  have n1 := h1.ne'
  have n2 := h2.ne'
  have n3 := h3.ne'
  have n4 := h4.ne'
  have a0 : 0 < r1 := by linarith
  have a1 := a0.ne'
  have a2 : r2 ≠ 0 := by intro h; rw [h] at h3; norm_num at h3
  have e0 : (r1 + r2) / 4 - r2 / 4 = r1 / 4 := by ring
  have e1 : ∀ e : ℝ, orMax r1 e = e := fun e => if_pos a0
  simp only [D2GDR2DT, D3GDR0R2DT]
  refine HasDerivAt.congr_deriv (by hdk) ?_
  all_goals try simp only [e0, e1]
  all_goals try generalize 1 - r0 - r1 / 4 - r2 / 2 = y at n2 ⊢
  all_goals first | ring1 | (field_simp; done) | (field_simp; ring1)

theorem D2GDR2DT_d1 (t p r0 r1 r2 : ℝ) (h0 : 0 < r0) (h1 : 0 < (r1 + r2) / 4) (h2 : 0 < 1 - r0 - r1 / 4 - r2 / 2) (h3 : 0 < r2 / 4) (h4 : 0 < (r1 + r2) / 4 - r2 / 4) :
    HasDerivAt (fun r1 => D2GDR2DT t p r0 r1 r2 r0 ((r1 + r2) / 4) (1 - r0 - r1 / 4 - r2 / 2) (r2 / 4)) (D3GDR1R2DT t p r0 r1 r2 r0 ((r1 + r2) / 4) (1 - r0 - r1 / 4 - r2 / 2) (r2 / 4)) r1 := by
  have n0 := h0.ne'
  have n1 := h1.ne'
  have n2 := h2.ne'
  have n3 := h3.ne'
  have n4 := h4.ne'
  have a0 : 0 < r1 := by linarith
  have a1 := a0.ne'
  have a2 : r2 ≠ 0 := by intro h; rw [h] at h3; norm_num at h3
  have e0 : (r1 + r2) / 4 - r2 / 4 = r1 / 4 := by ring
  have e1 : ∀ e : ℝ, orMax r1 e = e := fun e => if_pos a0
  simp only [D2GDR2DT, D3GDR1R2DT]
  refine HasDerivAt.congr_deriv (by hdk) ?_
  all_goals try simp only [e0, e1]
  all_goals try generalize 1 - r0 - r1 / 4 - r2 / 2 = y at n2 ⊢
  all_goals first | ring1 | (field_simp; done) | (field_simp; ring1)

theorem D2GDR2DT_d2 (t p r0 r1 r2 : ℝ) (h0 : 0 < r0) (h1 : 0 < (r1 + r2) / 4) (h2 : 0 < 1 - r0 - r1 / 4 - r2 / 2) (h3 : 0 < r2 / 4) (h4 : 0 < (r1 + r2) / 4 - r2 / 4) :
    HasDerivAt (fun r2 => D2GDR2DT t p r0 r1 r2 r0 ((r1 + r2) / 4) (1 - r0 - r1 / 4 - r2 / 2) (r2 / 4)) (D3GDR2R2DT t p r0 r1 r2 r0 ((r1 + r2) / 4) (1 - r0 - r1 / 4 - r2 / 2) (r2 / 4)) r2 := by
  have n0 := h0.ne'
  have n1 := h1.ne'
  have n2 := h2.ne'
  have n3 := h3.ne'
  have n4 := h4.ne'
  have a0 : 0 < r1 := by linarith
  have a1 := a0.ne'
  have a2 : r2 ≠ 0 := by intro h; rw [h] at h3; norm_num at h3
  have e0 : (r1 + r2) / 4 - r2 / 4 = r1 / 4 := by ring
  have e1 : ∀ e : ℝ, orMax r1 e = e := fun e => if_pos a0
  simp only [D2GDR2DT, D3GDR2R2DT]
  refine HasDerivAt.congr_deriv (by hdk) ?_
  all_goals try simp only [e0, e1]
  all_goals try generalize 1 - r0 - r1 / 4 - r2 / 2 = y at n2 ⊢
  all_goals first | ring1 | (field_simp; done) | (field_simp; ring1)

theorem D2GDR2DT_diff (t p : ℝ) (r : Fin 3 → ℝ) (h0 : 0 < r 0) (h1 : 0 < (r 1 + r 2) / 4) (h2 : 0 < 1 - r 0 - r 1 / 4 - r 2 / 2) (h3 : 0 < r 2 / 4) (h4 : 0 < (r 1 + r 2) / 4 - r 2 / 4) :
    DifferentiableAt ℝ (fun r : Fin 3 → ℝ => D2GDR2DT t p (r 0) (r 1) (r 2) (r 0) ((r 1 + r 2) / 4) (1 - r 0 - r 1 / 4 - r 2 / 2) (r 2 / 4)) r := by
  have n0 := h0.ne'
  have n1 := h1.ne'
  have n2 := h2.ne'
  have n3 := h3.ne'
  have n4 := h4.ne'
  have a0 : 0 < r 1 := by linarith
  have a1 := a0.ne'
  have a2 : r 2 ≠ 0 := by intro h; rw [h] at h3; norm_num at h3
  have e0 : (r 1 + r 2) / 4 - r 2 / 4 = r 1 / 4 := by ring
  have e1 : ∀ e : ℝ, orMax (r 1) e = e := fun e => if_pos a0
  simp only [D2GDR2DT]
  ddk

theorem DGDP_d0 (t p r0 r1 r2 : ℝ) (h0 : 0 < r0) (h1 : 0 < (r1 + r2) / 4) (h2 : 0 < 1 - r0 - r1 / 4 - r2 / 2) (h3 : 0 < r2 / 4) (h4 : 0 < (r1 + r2) / 4 - r2 / 4) :
    HasDerivAt (fun r0 => DGDP t p r0 r1 r2 r0 ((r1 + r2) / 4) (1 - r0 - r1 / 4 - r2 / 2) (r2 / 4)) (D2GDR0DP t p r0 r1 r2 r0 ((r1 + r2) / 4) (1 - r0 - r1 / 4 - r2 / 2) (r2 / 4)) r0 := by
  have n0 := h0.ne'
  have n1 := h1.ne'
  have n2 := h2.ne'
  have n3 := h3.ne'
  have n4 := h4.ne'
  have a0 : 0 < r1 := by linarith
  have a1 := a0.ne'
  have a2 : r2 ≠ 0 := by intro h; rw [h] at h3; norm_num at h3
  have e0 : (r1 + r2) / 4 - r2 / 4 = r1 / 4 := by ring
  have e1 : ∀ e : ℝ, orMax r1 e = e := fun e => if_pos a0
  simp only [V, DGDP, D2GDR0DP]
  refine HasDerivAt.congr_deriv (by hdk) ?_
  all_goals try simp only [e0, e1]
  all_goals try generalize 1 - r0 - r1 / 4 - r2 / 2 = y at n2 ⊢
  all_goals first | ring1 | (field_simp; done) | (field_simp; ring1)

theorem DGDP_d1 (t p r0 r1 r2 : ℝ) (h0 : 0 < r0) (h1 : 0 < (r1 + r2) / 4) (h2 : 0 < 1 - r0 - r1 / 4 - r2 / 2) (h3 : 0 < r2 / 4) (h4 : 0 < (r1 + r2) / 4 - r2 / 4) :
    HasDerivAt (fun r1 => DGDP t p r0 r1 r2 r0 ((r1 + r2) / 4) (1 - r0 - r1 / 4 - r2 / 2) (r2 / 4)) (D2GDR1DP t p r0 r1 r2 r0 ((r1 + r2) / 4) (1 - r0 - r1 / 4 - r2 / 2) (r2 / 4)) r1 := by
  have n0 := h0.ne'
  have n1 := h1.ne'
  have n2 := h2.ne'
  have n3 := h3.ne'
  have n4 := h4.ne'
  have a0 : 0 < r1 := by linarith
  have a1 := a0.ne'
  have a2 : r2 ≠ 0 := by intro h; rw [h] at h3; norm_num at h3
  have e0 : (r1 + r2) / 4 - r2 / 4 = r1 / 4 := by ring
  have e1 : ∀ e : ℝ, orMax r1 e = e := fun e => if_pos a0
  simp only [V, DGDP, D2GDR1DP]
  refine HasDerivAt.congr_deriv (by hdk) ?_
  all_goals try simp only [e0, e1]
  all_goals try generalize 1 - r0 - r1 / 4 - r2 / 2 = y at n2 ⊢
  all_goals first | ring1 | (field_simp; done) | (field_simp; ring1)

theorem DGDP_d2 (t p r0 r1 r2 : ℝ) (h0 : 0 < r0) (h1 : 0 < (r1 + r2) / 4) (h2 : 0 < 1 - r0 - r1 / 4 - r2 / 2) (h3 : 0 < r2 / 4) (h4 : 0 < (r1 + r2) / 4 - r2 / 4) :
    HasDerivAt (fun r2 => DGDP t p r0 r1 r2 r0 ((r1 + r2) / 4) (1 - r0 - r1 / 4 - r2 / 2) (r2 / 4)) (D2GDR2DP t p r0 r1 r2 r0 ((r1 + r2) / 4) (1 - r0 - r1 / 4 - r2 / 2) (r2 / 4)) r2 := by
  have n0 := h0.ne'
  have n1 := h1.ne'
  have n2 := h2.ne'
  have n3 := h3.ne'
  have n4 := h4.ne'
  have a0 : 0 < r1 := by linarith
  have a1 := a0.ne'
  have a2 : r2 ≠ 0 := by intro h; rw [h] at h3; norm_num at h3
  have e0 : (r1 + r2) / 4 - r2 / 4 = r1 / 4 := by ring
  have e1 : ∀ e : ℝ, orMax r1 e = e := fun e => if_pos a0
  simp only [V, DGDP, D2GDR2DP]
  refine HasDerivAt.congr_deriv (by hdk) ?_
  all_goals try simp only [e0, e1]
  all_goals try generalize 1 - r0 - r1 / 4 - r2 / 2 = y at n2 ⊢
  all_goals first | ring1 | (field_simp; done) | (field_simp; ring1)

theorem DGDP_diff (t p : ℝ) (r : Fin 3 → ℝ) (h0 : 0 < r 0) (h1 : 0 < (r 1 + r 2) / 4) (h2 : 0 < 1 - r 0 - r 1 / 4 - r 2 / 2) (h3 : 0 < r 2 / 4) (h4 : 0 < (r 1 + r 2) / 4 - r 2 / 4) :
    DifferentiableAt ℝ (fun r : Fin 3 → ℝ => DGDP t p (r 0) (r 1) (r 2) (r 0) ((r 1 + r 2) / 4) (1 - r 0 - r 1 / 4 - r 2 / 2) (r 2 / 4)) r := by
  have n0 := h0.ne'
  have n1 := h1.ne'
  have n2 := h2.ne'
  have n3 := h3.ne'
  have n4 := h4.ne'
  have a0 : 0 < r 1 := by linarith
  have a1 := a0.ne'
  have a2 : r 2 ≠ 0 := by intro h; rw [h] at h3; norm_num at h3
  have e0 : (r 1 + r 2) / 4 - r 2 / 4 = r 1 / 4 := by ring
  have e1 : ∀ e : ℝ, orMax (r 1) e = e := fun e => if_pos a0
  simp only [V, DGDP]
  ddk

theorem D2GDR0DP_d0 (t p r0 r1 r2 : ℝ) (h0 : 0 < r0) (h1 : 0 < (r1 + r2) / 4) (h2 : 0 < 1 - r0 - r1 / 4 - r2 / 2) (h3 : 0 < r2 / 4) (h4 : 0 < (r1 + r2) / 4 - r2 / 4) :
    HasDerivAt (fun r0 => D2GDR0DP t p r0 r1 r2 r0 ((r1 + r2) / 4) (1 - r0 - r1 / 4 - r2 / 2) (r2 / 4)) (D3GDR0R0DP t p r0 r1 r2 r0 ((r1 + r2) / 4) (1 - r0 - r1 / 4 - r2 / 2) (r2 / 4)) r0 := by
  have n0 := h0.ne'
  have n1 := h1.ne'
  have n2 := h2.ne'
  have n3 := h3.ne'
  have n4 := h4.ne'
  have a0 : 0 < r1 := by linarith
  have a1 := a0.ne'
  have a2 : r2 ≠ 0 := by intro h; rw [h] at h3; norm_num at h3
  have e0 : (r1 + r2) / 4 - r2 / 4 = r1 / 4 := by ring
  have e1 : ∀ e : ℝ, orMax r1 e = e := fun e => if_pos a0
  simp only [D2GDR0DP, D3GDR0R0DP]
  refine HasDerivAt.congr_deriv (by hdk) ?_
  all_goals try simp only [e0, e1]
  all_goals try generalize 1 - r0 - r1 / 4 - r2 / 2 = y at n2 ⊢
  all_goals first | ring1 | (field_simp; done) | (field_simp; ring1)

theorem D2GDR0DP_d1 (t p r0 r1 r2 : ℝ) (h0 : 0 < r0) (h1 : 0 < (r1 + r2) / 4) (h2 : 0 < 1 - r0 - r1 / 4 - r2 / 2) (h3 : 0 < r2 / 4) (h4 : 0 < (r1 + r2) / 4 - r2 / 4) :
    HasDerivAt (fun r1 => D2GDR0DP t p r0 r1 r2 r0 ((r1 + r2) / 4) (1 - r0 - r1 / 4 - r2 / 2) (r2 / 4)) (D3GDR0R1DP t p r0 r1 r2 r0 ((r1 + r2) / 4) (1 - r0 - r1 / 4 - r2 / 2) (r2 / 4)) r1 := by
  have n0 := h0.ne'
  have n1 := h1.ne'
  have n2 := h2.ne'
  have n3 := h3.ne'
  have n4 := h4.ne'
  have a0 : 0 < r1 := by linarith
  have a1 := a0.ne'
  have a2 : r2 ≠ 0 := by intro h; rw [h] at h3; norm_num at h3
  have e0 : (r1 + r2) / 4 - r2 / 4 = r1 / 4 := by ring
  have e1 : ∀ e : ℝ, orMax r1 e = e := fun e => if_pos a0
  simp only [D2GDR0DP, D3GDR0R1DP]
  refine HasDerivAt.congr_deriv (by hdk) ?_
  all_goals try simp only [e0, e1]
  all_goals try generalize 1 - r0 - r1 / 4 - r2 / 2 = y at n2 ⊢
  all_goals first | ring1 | (field_simp; done) | (field_simp; ring1)

theorem D2GDR0DP_d2 (t p r0 r1 r2 : ℝ) (h0 : 0 < r0) (h1 : 0 < (r1 + r2) / 4) (h2 : 0 < 1 - r0 - r1 / 4 - r2 / 2) (h3 : 0 < r2 / 4) (h4 : 0 < (r1 + r2) / 4 - r2 / 4) :
    HasDerivAt (fun r2 => D2GDR0DP t p r0 r1 r2 r0 ((r1 + r2) / 4) (1 - r0 - r1 / 4 - r2 / 2) (r2 / 4)) (D3GDR0R2DP t p r0 r1 r2 r0 ((r1 + r2) / 4) (1 - r0 - r1 / 4 - r2 / 2) (r2 / 4)) r2 := by
  have n0 := h0.ne'
  have n1 := h1.ne'
  have n2 := h2.ne'
  have n3 := h3.ne'
  have n4 := h4.ne'
  have a0 : 0 < r1 := by linarith
  have a1 := a0.ne'
  have a2 : r2 ≠ 0 := by intro h; rw [h] at h3; norm_num at h3
  have e0 : (r1 + r2) / 4 - r2 / 4 = r1 / 4 := by ring
  have e1 : ∀ e : ℝ, orMax r1 e = e := fun e => if_pos a0
  simp only [D2GDR0DP, D3GDR0R2DP]
  refine HasDerivAt.congr_deriv (by hdk) ?_
  all_goals try simp only [e0, e1]
  all_goals try generalize 1 - r0 - r1 / 4 - r2 / 2 = y at n2 ⊢
  all_goals first | ring1 | (field_simp; done) | (field_simp; ring1)

theorem D2GDR0DP_diff (t p : ℝ) (r : Fin 3 → ℝ) (h0 : 0 < r 0) (h1 : 0 < (r 1 + r 2) / 4) (h2 : 0 < 1 - r 0 - r 1 / 4 - r 2 / 2) (h3 : 0 < r 2 / 4) (h4 : 0 < (r 1 + r 2) / 4 - r 2 / 4) :
    DifferentiableAt ℝ (fun r : Fin 3 → ℝ => D2GDR0DP t p (r 0) (r 1) (r 2) (r 0) ((r 1 + r 2) / 4) (1 - r 0 - r 1 / 4 - r 2 / 2) (r 2 / 4)) r := by
  have n0 := h0.ne'
  have n1 := h1.ne'
  have n2 := h2.ne'
  have n3 := h3.ne'
  have n4 := h4.ne'
  have a0 : 0 < r 1 := by linarith
  have a1 := a0.ne'
  have a2 : r 2 ≠ 0 := by intro h; rw [h] at h3; norm_num at h3
  have e0 : (r 1 + r 2) / 4 - r 2 / 4 = r 1 / 4 := by ring
  have e1 : ∀ e : ℝ, orMax (r 1) e = e := fun e => if_pos a0
  simp only [D2GDR0DP]
  ddk

theorem D2GDR1DP_d0 (t p r0 r1 r2 : ℝ) (h0 : 0 < r0) (h1 : 0 < (r1 + r2) / 4) (h2 : 0 < 1 - r0 - r1 / 4 - r2 / 2) (h3 : 0 < r2 / 4) (h4 : 0 < (r1 + r2) / 4 - r2 / 4) :
    HasDerivAt (fun r0 => D2GDR1DP t p r0 r1 r2 r0 ((r1 + r2) / 4) (1 - r0 - r1 / 4 - r2 / 2) (r2 / 4)) (D3GDR0R1DP t p r0 r1 r2 r0 ((r1 + r2) / 4) (1 - r0 - r1 / 4 - r2 / 2) (r2 / 4)) r0 := by
  have n0 := h0.ne'
  have n1 := h1.ne'
  have n2 := h2.ne'
  have n3 := h3.ne'
  have n4 := h4.ne'
  have a0 : 0 < r1 := by linarith
  have a1 := a0.ne'
  have a2 : r2 ≠ 0 := by intro h; rw [h] at h3; norm_num at h3
  have e0 : (r1 + r2) / 4 - r2 / 4 = r1 / 4 := by ring
  have e1 : ∀ e : ℝ, orMax r1 e = e := fun e => if_pos a0
  simp only [D2GDR1DP, D3GDR0R1DP]
  refine HasDerivAt.congr_deriv (by hdk) ?_
  all_goals try simp only [e0, e1]
  all_goals try generalize 1 - r0 - r1 / 4 - r2 / 2 = y at n2 ⊢
  all_goals first | ring1 | (field_simp; done) | (field_simp; ring1)

theorem D2GDR1DP_d1 (t p r0 r1 r2 : ℝ) (h0 : 0 < r0) (h1 : 0 < (r1 + r2) / 4) (h2 : 0 < 1 - r0 - r1 / 4 - r2 / 2) (h3 : 0 < r2 / 4) (h4 : 0 < (r1 + r2) / 4 - r2 / 4) :
    HasDerivAt (fun r1 => D2GDR1DP t p r0 r1 r2 r0 ((r1 + r2) / 4) (1 - r0 - r1 / 4 - r2 / 2) (r2 / 4)) (D3GDR1R1DP t p r0 r1 r2 r0 ((r1 + r2) / 4) (1 - r0 - r1 / 4 - r2 / 2) (r2 / 4)) r1 := by
  have n0 := h0.ne'
  have n1 := h1.ne'
  have n2 := h2.ne'
  have n3 := h3.ne'
  have n4 := h4.ne'
  have a0 : 0 < r1 := by linarith
  have a1 := a0.ne'
  have a2 : r2 ≠ 0 := by intro h; rw [h] at h3; norm_num at h3
  have e0 : (r1 + r2) / 4 - r2 / 4 = r1 / 4 := by ring
  have e1 : ∀ e : ℝ, orMax r1 e = e := fun e => if_pos a0
  simp only [D2GDR1DP, D3GDR1R1DP]
  refine HasDerivAt.congr_deriv (by hdk) ?_
  all_goals try simp only [e0, e1]
  all_goals try generalize 1 - r0 - r1 / 4 - r2 / 2 = y at n2 ⊢
  all_goals first | ring1 | (field_simp; done) | (field_simp; ring1)

theorem D2GDR1DP_d2 (t p r0 r1 r2 : ℝ) (h0 : 0 < r0) (h1 : 0 < (r1 + r2) / 4) (h2 : 0 < 1 - r0 - r1 / 4 - r2 / 2) (h3 : 0 < r2 / 4) (h4 : 0 < (r1 + r2) / 4 - r2 / 4) :
    HasDerivAt (fun r2 => D2GDR1DP t p r0 r1 r2 r0 ((r1 + r2) / 4) (1 - r0 - r1 / 4 - r2 / 2) (r2 / 4)) (D3GDR1R2DP t p r0 r1 r2 r0 ((r1 + r2) / 4) (1 - r0 - r1 / 4 - r2 / 2) (r2 / 4)) r2 := by
  have n0 := h0.ne'
  have n1 := h1.ne'
  have n2 := h2.ne'
  have n3 := h3.ne'
  have n4 := h4.ne'
  have a0 : 0 < r1 := by linarith
  have a1 := a0.ne'
  have a2 : r2 ≠ 0 := by intro h; rw [h] at h3; norm_num at h3
  have e0 : (r1 + r2) / 4 - r2 / 4 = r1 / 4 := by ring
  have e1 : ∀ e : ℝ, orMax r1 e = e := fun e => if_pos a0
  simp only [D2GDR1DP, D3GDR1R2DP]
  refine HasDerivAt.congr_deriv (by hdk) ?_
  all_goals try simp only [e0, e1]
  all_goals try generalize 1 - r0 - r1 / 4 - r2 / 2 = y at n2 ⊢
  all_goals first | ring1 | (field_simp; done) | (field_simp; ring1)

theorem D2GDR1DP_diff (t p : ℝ) (r : Fin 3 → ℝ) (h0 : 0 < r 0) (h1 : 0 < (r 1 + r 2) / 4) (h2 : 0 < 1 - r 0 - r 1 / 4 - r 2 / 2) (h3 : 0 < r 2 / 4) (h4 : 0 < (r 1 + r 2) / 4 - r 2 / 4) :
    DifferentiableAt ℝ (fun r : Fin 3 → ℝ => D2GDR1DP t p (r 0) (r 1) (r 2) (r 0) ((r 1 + r 2) / 4) (1 - r 0 - r 1 / 4 - r 2 / 2) (r 2 / 4)) r := by
  have n0 := h0.ne'
  have n1 := h1.ne'
  have n2 := h2.ne'
  have n3 := h3.ne'
  have n4 := h4.ne'
  have a0 : 0 < r 1 := by linarith
  have a1 := a0.ne'
  have a2 : r 2 ≠ 0 := by intro h; rw [h] at h3; norm_num at h3
  have e0 : (r 1 + r 2) / 4 - r 2 / 4 = r 1 / 4 := by ring
  have e1 : ∀ e : ℝ, orMax (r 1) e = e := fun e => if_pos a0
  simp only [D2GDR1DP]
  ddk

theorem D2GDR2DP_d0 (t p r0 r1 r2 : ℝ) (h0 : 0 < r0) (h1 : 0 < (r1 + r2) / 4) (h2 : 0 < 1 - r0 - r1 / 4 - r2 / 2) (h3 : 0 < r2 / 4) (h4 : 0 < (r1 + r2) / 4 - r2 / 4) :
    HasDerivAt (fun r0 => D2GDR2DP t p r0 r1 r2 r0 ((r1 + r2) / 4) (1 - r0 - r1 / 4 - r2 / 2) (r2 / 4)) (D3GDR0R2DP t p r0 r1 r2 r0 ((r1 + r2) / 4) (1 - r0 - r1 / 4 - r2 / 2) (r2 / 4)) r0 := by
  have n0 := h0.ne'
  have n1 := h1.ne'
  have n2 := h2.ne'
  have n3 := h3.ne'
  have n4 := h4.ne'
  have a0 : 0 < r1 := by linarith
  have a1 := a0.ne'
  have a2 : r2 ≠ 0 := by intro h; rw [h] at h3; norm_num at h3
  have e0 : (r1 + r2) / 4 - r2 / 4 = r1 / 4 := by ring
  have e1 : ∀ e : ℝ, orMax r1 e = e := fun e => if_pos a0
  simp only [D2GDR2DP, D3GDR0R2DP]
  refine HasDerivAt.congr_deriv (by hdk) ?_
  all_goals try simp only [e0, e1]
  all_goals try generalize 1 - r0 - r1 / 4 - r2 / 2 = y at n2 ⊢
  all_goals first | ring1 | (field_simp; done) | (field_simp; ring1)

theorem D2GDR2DP_d1 (t p r0 r1 r2 : ℝ) (h0 : 0 < r0) (h1 : 0 < (r1 + r2) / 4) (h2 : 0 < 1 - r0 - r1 / 4 - r2 / 2) (h3 : 0 < r2 / 4) (h4 : 0 < (r1 + r2) / 4 - r2 / 4) :
    HasDerivAt (fun r1 => D2GDR2DP t p r0 r1 r2 r0 ((r1 + r2) / 4) (1 - r0 - r1 / 4 - r2 / 2) (r2 / 4)) (D3GDR1R2DP t p r0 r1 r2 r0 ((r1 + r2) / 4) (1 - r0 - r1 / 4 - r2 / 2) (r2 / 4)) r1 := by
  have n0 := h0.ne'
  have n1 := h1.ne'
  have n2 := h2.ne'
  have n3 := h3.ne'
  have n4 := h4.ne'
  have a0 : 0 < r1 := by linarith
  have a1 := a0.ne'
  have a2 : r2 ≠ 0 := by intro h; rw [h] at h3; norm_num at h3
  have e0 : (r1 + r2) / 4 - r2 / 4 = r1 / 4 := by ring
  have e1 : ∀ e : ℝ, orMax r1 e = e := fun e => if_pos a0
  simp only [D2GDR2DP, D3GDR1R2DP]
  refine HasDerivAt.congr_deriv (by hdk) ?_
  all_goals try simp only [e0, e1]
  all_goals try generalize 1 - r0 - r1 / 4 - r2 / 2 = y at n2 ⊢
  all_goals first | ring1 | (field_simp; done) | (field_simp; ring1)

theorem D2GDR2DP_d2 (t p r0 r1 r2 : ℝ) (h0 : 0 < r0) (h1 : 0 < (r1 + r2) / 4) (h2 : 0 < 1 - r0 - r1 / 4 - r2 / 2) (h3 : 0 < r2 / 4) (h4 : 0 < (r1 + r2) / 4 - r2 / 4) :
    HasDerivAt (fun r2 => D2GDR2DP t p r0 r1 r2 r0 ((r1 + r2) / 4) (1 - r0 - r1 / 4 - r2 / 2) (r2 / 4)) (D3GDR2R2DP t p r0 r1 r2 r0 ((r1 + r2) / 4) (1 - r0 - r1 / 4 - r2 / 2) (r2 / 4)) r2 := by
  have n0 := h0.ne'
  have n1 := h1.ne'
  have n2 := h2.ne'
  have n3 := h3.ne'
  have n4 := h4.ne'
  have a0 : 0 < r1 := by linarith
  have a1 := a0.ne'
  have a2 : r2 ≠ 0 := by intro h; rw [h] at h3; norm_num at h3
  have e0 : (r1 + r2) / 4 - r2 / 4 = r1 / 4 := by ring
  have e1 : ∀ e : ℝ, orMax r1 e = e := fun e => if_pos a0
  simp only [D2GDR2DP, D3GDR2R2DP]
  refine HasDerivAt.congr_deriv (by hdk) ?_
  all_goals try simp only [e0, e1]
  all_goals try generalize 1 - r0 - r1 / 4 - r2 / 2 = y at n2 ⊢
  all_goals first | ring1 | (field_simp; done) | (field_simp; ring1)

theorem D2GDR2DP_diff (t p : ℝ) (r : Fin 3 → ℝ) (h0 : 0 < r 0) (h1 : 0 < (r 1 + r 2) / 4) (h2 : 0 < 1 - r 0 - r 1 / 4 - r 2 / 2) (h3 : 0 < r 2 / 4) (h4 : 0 < (r 1 + r 2) / 4 - r 2 / 4) :
    DifferentiableAt ℝ (fun r : Fin 3 → ℝ => D2GDR2DP t p (r 0) (r 1) (r 2) (r 0) ((r 1 + r 2) / 4) (1 - r 0 - r 1 / 4 - r 2 / 2) (r 2 / 4)) r := by
  have n0 := h0.ne'
  have n1 := h1.ne'
  have n2 := h2.ne'
  have n3 := h3.ne'
  have n4 := h4.ne'
  have a0 : 0 < r 1 := by linarith
  have a1 := a0.ne'
  have a2 : r 2 ≠ 0 := by intro h; rw [h] at h3; norm_num at h3
  have e0 : (r 1 + r 2) / 4 - r 2 / 4 = r 1 / 4 := by ring
  have e1 : ∀ e : ℝ, orMax (r 1) e = e := fun e => if_pos a0
  simp only [D2GDR2DP]
  ddk

set_option maxHeartbeats 1600000 in
theorem consistent_raw : (ofSites F raw).Consistent (Interior dom) := by
  have posr : ∀ r, Interior dom r → ∀ k, 0 < dom r k := fun r hr k => lt_trans eps_pos (hr k)
  constructor
  · intro t p r hr
    have pos := posr r hr
    refine grad_of_partials (G_diff t p r (pos 0) (pos 1) (pos 2) (pos 3) (pos 4)) fun j => partial_of_update ?_
    fin_cases j
    · exact (G_d0 t p (r 0) (r 1) (r 2) (pos 0) (pos 1) (pos 2) (pos 3) (pos 4))
    · exact (G_d1 t p (r 0) (r 1) (r 2) (pos 0) (pos 1) (pos 2) (pos 3) (pos 4))
    · exact (G_d2 t p (r 0) (r 1) (r 2) (pos 0) (pos 1) (pos 2) (pos 3) (pos 4))
  · intro t p r hr i
    have pos := posr r hr
    fin_cases i
    · skip
      refine grad_of_partials (DGDR0_diff t p r (pos 0) (pos 1) (pos 2) (pos 3) (pos 4)) fun j => partial_of_update ?_
      fin_cases j
      · exact (DGDR0_d0 t p (r 0) (r 1) (r 2) (pos 0) (pos 1) (pos 2) (pos 3) (pos 4))
      · exact (DGDR0_d1 t p (r 0) (r 1) (r 2) (pos 0) (pos 1) (pos 2) (pos 3) (pos 4))
      · exact (DGDR0_d2 t p (r 0) (r 1) (r 2) (pos 0) (pos 1) (pos 2) (pos 3) (pos 4))
    · skip
      refine grad_of_partials (DGDR1_diff t p r (pos 0) (pos 1) (pos 2) (pos 3) (pos 4)) fun j => partial_of_update ?_
      fin_cases j
      · exact (DGDR1_d0 t p (r 0) (r 1) (r 2) (pos 0) (pos 1) (pos 2) (pos 3) (pos 4))
      · exact (DGDR1_d1 t p (r 0) (r 1) (r 2) (pos 0) (pos 1) (pos 2) (pos 3) (pos 4))
      · exact (DGDR1_d2 t p (r 0) (r 1) (r 2) (pos 0) (pos 1) (pos 2) (pos 3) (pos 4))
    · skip
      refine grad_of_partials (DGDR2_diff t p r (pos 0) (pos 1) (pos 2) (pos 3) (pos 4)) fun j => partial_of_update ?_
      fin_cases j
      · exact (DGDR2_d0 t p (r 0) (r 1) (r 2) (pos 0) (pos 1) (pos 2) (pos 3) (pos 4))
      · exact (DGDR2_d1 t p (r 0) (r 1) (r 2) (pos 0) (pos 1) (pos 2) (pos 3) (pos 4))
      · exact (DGDR2_d2 t p (r 0) (r 1) (r 2) (pos 0) (pos 1) (pos 2) (pos 3) (pos 4))
  · intro t p r hr i j
    have pos := posr r hr
    fin_cases i <;> fin_cases j
    · skip
      refine grad_of_partials (D2GDR0R0_diff t p r (pos 0) (pos 1) (pos 2) (pos 3) (pos 4)) fun j => partial_of_update ?_
      fin_cases j
      · exact (D2GDR0R0_d0 t p (r 0) (r 1) (r 2) (pos 0) (pos 1) (pos 2) (pos 3) (pos 4))
      · exact (D2GDR0R0_d1 t p (r 0) (r 1) (r 2) (pos 0) (pos 1) (pos 2) (pos 3) (pos 4))
      · exact (D2GDR0R0_d2 t p (r 0) (r 1) (r 2) (pos 0) (pos 1) (pos 2) (pos 3) (pos 4))
    · skip
      refine grad_of_partials (D2GDR0R1_diff t p r (pos 0) (pos 1) (pos 2) (pos 3) (pos 4)) fun j => partial_of_update ?_
      fin_cases j
      · exact (D2GDR0R1_d0 t p (r 0) (r 1) (r 2) (pos 0) (pos 1) (pos 2) (pos 3) (pos 4))
      · exact (D2GDR0R1_d1 t p (r 0) (r 1) (r 2) (pos 0) (pos 1) (pos 2) (pos 3) (pos 4))
      · exact (D2GDR0R1_d2 t p (r 0) (r 1) (r 2) (pos 0) (pos 1) (pos 2) (pos 3) (pos 4))
    · skip
      refine grad_of_partials (D2GDR0R2_diff t p r (pos 0) (pos 1) (pos 2) (pos 3) (pos 4)) fun j => partial_of_update ?_
      fin_cases j
      · exact (D2GDR0R2_d0 t p (r 0) (r 1) (r 2) (pos 0) (pos 1) (pos 2) (pos 3) (pos 4))
      · exact (D2GDR0R2_d1 t p (r 0) (r 1) (r 2) (pos 0) (pos 1) (pos 2) (pos 3) (pos 4))
      · exact (D2GDR0R2_d2 t p (r 0) (r 1) (r 2) (pos 0) (pos 1) (pos 2) (pos 3) (pos 4))
    · skip
      refine grad_of_partials (D2GDR0R1_diff t p r (pos 0) (pos 1) (pos 2) (pos 3) (pos 4)) fun j => partial_of_update ?_
      fin_cases j
      · exact (D2GDR0R1_d0 t p (r 0) (r 1) (r 2) (pos 0) (pos 1) (pos 2) (pos 3) (pos 4))
      · exact (D2GDR0R1_d1 t p (r 0) (r 1) (r 2) (pos 0) (pos 1) (pos 2) (pos 3) (pos 4))
      · exact (D2GDR0R1_d2 t p (r 0) (r 1) (r 2) (pos 0) (pos 1) (pos 2) (pos 3) (pos 4))
    · skip
      refine grad_of_partials (D2GDR1R1_diff t p r (pos 0) (pos 1) (pos 2) (pos 3) (pos 4)) fun j => partial_of_update ?_
      fin_cases j
      · exact (D2GDR1R1_d0 t p (r 0) (r 1) (r 2) (pos 0) (pos 1) (pos 2) (pos 3) (pos 4))
      · exact (D2GDR1R1_d1 t p (r 0) (r 1) (r 2) (pos 0) (pos 1) (pos 2) (pos 3) (pos 4))
      · exact (D2GDR1R1_d2 t p (r 0) (r 1) (r 2) (pos 0) (pos 1) (pos 2) (pos 3) (pos 4))
    · skip
      refine grad_of_partials (D2GDR1R2_diff t p r (pos 0) (pos 1) (pos 2) (pos 3) (pos 4)) fun j => partial_of_update ?_
      fin_cases j
      · exact (D2GDR1R2_d0 t p (r 0) (r 1) (r 2) (pos 0) (pos 1) (pos 2) (pos 3) (pos 4))
      · exact (D2GDR1R2_d1 t p (r 0) (r 1) (r 2) (pos 0) (pos 1) (pos 2) (pos 3) (pos 4))
      · exact (D2GDR1R2_d2 t p (r 0) (r 1) (r 2) (pos 0) (pos 1) (pos 2) (pos 3) (pos 4))
    · skip
      refine grad_of_partials (D2GDR0R2_diff t p r (pos 0) (pos 1) (pos 2) (pos 3) (pos 4)) fun j => partial_of_update ?_
      fin_cases j
      · exact (D2GDR0R2_d0 t p (r 0) (r 1) (r 2) (pos 0) (pos 1) (pos 2) (pos 3) (pos 4))
      · exact (D2GDR0R2_d1 t p (r 0) (r 1) (r 2) (pos 0) (pos 1) (pos 2) (pos 3) (pos 4))
      · exact (D2GDR0R2_d2 t p (r 0) (r 1) (r 2) (pos 0) (pos 1) (pos 2) (pos 3) (pos 4))
    · skip
      refine grad_of_partials (D2GDR1R2_diff t p r (pos 0) (pos 1) (pos 2) (pos 3) (pos 4)) fun j => partial_of_update ?_
      fin_cases j
      · exact (D2GDR1R2_d0 t p (r 0) (r 1) (r 2) (pos 0) (pos 1) (pos 2) (pos 3) (pos 4))
      · exact (D2GDR1R2_d1 t p (r 0) (r 1) (r 2) (pos 0) (pos 1) (pos 2) (pos 3) (pos 4))
      · exact (D2GDR1R2_d2 t p (r 0) (r 1) (r 2) (pos 0) (pos 1) (pos 2) (pos 3) (pos 4))
    · skip
      refine grad_of_partials (D2GDR2R2_diff t p r (pos 0) (pos 1) (pos 2) (pos 3) (pos 4)) fun j => partial_of_update ?_
      fin_cases j
      · exact (D2GDR2R2_d0 t p (r 0) (r 1) (r 2) (pos 0) (pos 1) (pos 2) (pos 3) (pos 4))
      · exact (D2GDR2R2_d1 t p (r 0) (r 1) (r 2) (pos 0) (pos 1) (pos 2) (pos 3) (pos 4))
      · exact (D2GDR2R2_d2 t p (r 0) (r 1) (r 2) (pos 0) (pos 1) (pos 2) (pos 3) (pos 4))
  · intro t p r hr
    simp only [ofSites, F, H, S, V, G]
    refine HasDerivAt.congr_deriv (by hd) ?_
    ring
  · intro t p r hr; rfl
  · intro t p r hr
    have pos := posr r hr
    refine grad_of_partials (S_diff t p r (pos 0) (pos 1) (pos 2) (pos 3) (pos 4)) fun j => partial_of_update ?_
    fin_cases j
    · exact S_d0 t p (r 0) (r 1) (r 2) (pos 0) (pos 1) (pos 2) (pos 3) (pos 4)
    · exact S_d1 t p (r 0) (r 1) (r 2) (pos 0) (pos 1) (pos 2) (pos 3) (pos 4)
    · exact S_d2 t p (r 0) (r 1) (r 2) (pos 0) (pos 1) (pos 2) (pos 3) (pos 4)
  · intro t p r hr i
    have pos := posr r hr
    fin_cases i
    · skip
      refine grad_of_partials ((D2GDR0DT_diff t p r (pos 0) (pos 1) (pos 2) (pos 3) (pos 4)).fun_neg) fun j => partial_of_update ?_
      fin_cases j
      · exact ((D2GDR0DT_d0 t p (r 0) (r 1) (r 2) (pos 0) (pos 1) (pos 2) (pos 3) (pos 4))).fun_neg
      · exact ((D2GDR0DT_d1 t p (r 0) (r 1) (r 2) (pos 0) (pos 1) (pos 2) (pos 3) (pos 4))).fun_neg
      · exact ((D2GDR0DT_d2 t p (r 0) (r 1) (r 2) (pos 0) (pos 1) (pos 2) (pos 3) (pos 4))).fun_neg
    · skip
      refine grad_of_partials ((D2GDR1DT_diff t p r (pos 0) (pos 1) (pos 2) (pos 3) (pos 4)).fun_neg) fun j => partial_of_update ?_
      fin_cases j
      · exact ((D2GDR1DT_d0 t p (r 0) (r 1) (r 2) (pos 0) (pos 1) (pos 2) (pos 3) (pos 4))).fun_neg
      · exact ((D2GDR1DT_d1 t p (r 0) (r 1) (r 2) (pos 0) (pos 1) (pos 2) (pos 3) (pos 4))).fun_neg
      · exact ((D2GDR1DT_d2 t p (r 0) (r 1) (r 2) (pos 0) (pos 1) (pos 2) (pos 3) (pos 4))).fun_neg
    · skip
      refine grad_of_partials ((D2GDR2DT_diff t p r (pos 0) (pos 1) (pos 2) (pos 3) (pos 4)).fun_neg) fun j => partial_of_update ?_
      fin_cases j
      · exact ((D2GDR2DT_d0 t p (r 0) (r 1) (r 2) (pos 0) (pos 1) (pos 2) (pos 3) (pos 4))).fun_neg
      · exact ((D2GDR2DT_d1 t p (r 0) (r 1) (r 2) (pos 0) (pos 1) (pos 2) (pos 3) (pos 4))).fun_neg
      · exact ((D2GDR2DT_d2 t p (r 0) (r 1) (r 2) (pos 0) (pos 1) (pos 2) (pos 3) (pos 4))).fun_neg
  · intro t p r hr
    simp only [ofSites, F, H, S, V, G, D2GDT2]
    refine HasDerivAt.congr_deriv (by hd) ?_
    ring
  · intro t p r hr
    simp only [ofSites, F, D2GDT2, D3GDT3]
    refine HasDerivAt.congr_deriv (by hd) ?_
    ring
  · intro t p r hr
    refine grad_of_partials ?_ fun j => partial_of_update ?_
    · simp only [ofSites, F, D2GDT2]; dd
    · fin_cases j
      · change HasDerivAt (fun _ : ℝ => -t * (0 : ℝ)) (-t * (0 : ℝ)) _
        exact (hasDerivAt_const _ _).congr_deriv (by ring)
      · change HasDerivAt (fun _ : ℝ => -t * (0 : ℝ)) (-t * (0 : ℝ)) _
        exact (hasDerivAt_const _ _).congr_deriv (by ring)
      · change HasDerivAt (fun _ : ℝ => -t * (0 : ℝ)) (-t * (0 : ℝ)) _
        exact (hasDerivAt_const _ _).congr_deriv (by ring)
  · intro t p r hr
    simp only [ofSites, F, H, S, V, G, DGDP]
    refine HasDerivAt.congr_deriv (by hd) ?_
    ring
  · intro t p r hr
    have pos := posr r hr
    refine grad_of_partials (DGDP_diff t p r (pos 0) (pos 1) (pos 2) (pos 3) (pos 4)) fun j => partial_of_update ?_
    fin_cases j
    · exact (DGDP_d0 t p (r 0) (r 1) (r 2) (pos 0) (pos 1) (pos 2) (pos 3) (pos 4))
    · exact (DGDP_d1 t p (r 0) (r 1) (r 2) (pos 0) (pos 1) (pos 2) (pos 3) (pos 4))
    · exact (DGDP_d2 t p (r 0) (r 1) (r 2) (pos 0) (pos 1) (pos 2) (pos 3) (pos 4))
  · intro t p r hr i
    have pos := posr r hr
    fin_cases i
    · skip
      refine grad_of_partials (D2GDR0DP_diff t p r (pos 0) (pos 1) (pos 2) (pos 3) (pos 4)) fun j => partial_of_update ?_
      fin_cases j
      · exact (D2GDR0DP_d0 t p (r 0) (r 1) (r 2) (pos 0) (pos 1) (pos 2) (pos 3) (pos 4))
      · exact (D2GDR0DP_d1 t p (r 0) (r 1) (r 2) (pos 0) (pos 1) (pos 2) (pos 3) (pos 4))
      · exact (D2GDR0DP_d2 t p (r 0) (r 1) (r 2) (pos 0) (pos 1) (pos 2) (pos 3) (pos 4))
    · skip
      refine grad_of_partials (D2GDR1DP_diff t p r (pos 0) (pos 1) (pos 2) (pos 3) (pos 4)) fun j => partial_of_update ?_
      fin_cases j
      · exact (D2GDR1DP_d0 t p (r 0) (r 1) (r 2) (pos 0) (pos 1) (pos 2) (pos 3) (pos 4))
      · exact (D2GDR1DP_d1 t p (r 0) (r 1) (r 2) (pos 0) (pos 1) (pos 2) (pos 3) (pos 4))
      · exact (D2GDR1DP_d2 t p (r 0) (r 1) (r 2) (pos 0) (pos 1) (pos 2) (pos 3) (pos 4))
    · skip
      refine grad_of_partials (D2GDR2DP_diff t p r (pos 0) (pos 1) (pos 2) (pos 3) (pos 4)) fun j => partial_of_update ?_
      fin_cases j
      · exact (D2GDR2DP_d0 t p (r 0) (r 1) (r 2) (pos 0) (pos 1) (pos 2) (pos 3) (pos 4))
      · exact (D2GDR2DP_d1 t p (r 0) (r 1) (r 2) (pos 0) (pos 1) (pos 2) (pos 3) (pos 4))
      · exact (D2GDR2DP_d2 t p (r 0) (r 1) (r 2) (pos 0) (pos 1) (pos 2) (pos 3) (pos 4))
  · intro t p r hr
    simp only [ofSites, F, V, DGDP, D2GDTDP]
    refine HasDerivAt.congr_deriv (by hd) ?_
    ring
  · intro t p r hr
    simp only [ofSites, F, V, DGDP, D2GDP2]
    refine HasDerivAt.congr_deriv (by hd) ?_
    ring
  · intro t p r hr
    simp only [ofSites, F, D2GDTDP, D3GDT2DP]
    refine HasDerivAt.congr_deriv (by hd) ?_
    ring
  · intro t p r hr
    simp only [ofSites, F, D2GDTDP, D3GDTDP2]
    refine HasDerivAt.congr_deriv (by hd) ?_
    ring
  · intro t p r hr
    simp only [ofSites, F, D2GDP2, D3GDP3]
    refine HasDerivAt.congr_deriv (by hd) ?_
    ring
  · intro t p r hr i
    fin_cases i
    · change HasDerivAt (fun t => D2GDR0DP t p (r 0) (r 1) (r 2) (raw r 0) (raw r 1) (raw r 2) (raw r 3)) (D3GDR0DTDP t p (r 0) (r 1) (r 2) (raw r 0) (raw r 1) (raw r 2) (raw r 3)) t
      simp only [D2GDR0DP, D3GDR0DTDP]
      refine HasDerivAt.congr_deriv (by hd) ?_
      ring
    · change HasDerivAt (fun t => D2GDR1DP t p (r 0) (r 1) (r 2) (raw r 0) (raw r 1) (raw r 2) (raw r 3)) (D3GDR1DTDP t p (r 0) (r 1) (r 2) (raw r 0) (raw r 1) (raw r 2) (raw r 3)) t
      simp only [D2GDR1DP, D3GDR1DTDP]
      refine HasDerivAt.congr_deriv (by hd) ?_
      ring
    · change HasDerivAt (fun t => D2GDR2DP t p (r 0) (r 1) (r 2) (raw r 0) (raw r 1) (raw r 2) (raw r 3)) (D3GDR2DTDP t p (r 0) (r 1) (r 2) (raw r 0) (raw r 1) (raw r 2) (raw r 3)) t
      simp only [D2GDR2DP, D3GDR2DTDP]
      refine HasDerivAt.congr_deriv (by hd) ?_
      ring
  · intro t p r hr i
    fin_cases i
    · change HasDerivAt (fun p => D2GDR0DP t p (r 0) (r 1) (r 2) (raw r 0) (raw r 1) (raw r 2) (raw r 3)) (D3GDR0DP2 t p (r 0) (r 1) (r 2) (raw r 0) (raw r 1) (raw r 2) (raw r 3)) p
      simp only [D2GDR0DP, D3GDR0DP2]
      refine HasDerivAt.congr_deriv (by hd) ?_
      ring
    · change HasDerivAt (fun p => D2GDR1DP t p (r 0) (r 1) (r 2) (raw r 0) (raw r 1) (raw r 2) (raw r 3)) (D3GDR1DP2 t p (r 0) (r 1) (r 2) (raw r 0) (raw r 1) (raw r 2) (raw r 3)) p
      simp only [D2GDR1DP, D3GDR1DP2]
      refine HasDerivAt.congr_deriv (by hd) ?_
      ring
    · change HasDerivAt (fun p => D2GDR2DP t p (r 0) (r 1) (r 2) (raw r 0) (raw r 1) (raw r 2) (raw r 3)) (D3GDR2DP2 t p (r 0) (r 1) (r 2) (raw r 0) (raw r 1) (raw r 2) (raw r 3)) p
      simp only [D2GDR2DP, D3GDR2DP2]
      refine HasDerivAt.congr_deriv (by hd) ?_
      ring
  · intro t p r hr i
    fin_cases i
    · change HasDerivAt (fun t => DGDR0 t p (r 0) (r 1) (r 2) (raw r 0) (raw r 1) (raw r 2) (raw r 3)) (-(-(D2GDR0DT t p (r 0) (r 1) (r 2) (raw r 0) (raw r 1) (raw r 2) (raw r 3)))) t
      simp only [DGDR0, D2GDR0DT]
      refine HasDerivAt.congr_deriv (by hd) ?_
      ring
    · change HasDerivAt (fun t => DGDR1 t p (r 0) (r 1) (r 2) (raw r 0) (raw r 1) (raw r 2) (raw r 3)) (-(-(D2GDR1DT t p (r 0) (r 1) (r 2) (raw r 0) (raw r 1) (raw r 2) (raw r 3)))) t
      simp only [DGDR1, D2GDR1DT]
      refine HasDerivAt.congr_deriv (by hd) ?_
      ring
    · change HasDerivAt (fun t => DGDR2 t p (r 0) (r 1) (r 2) (raw r 0) (raw r 1) (raw r 2) (raw r 3)) (-(-(D2GDR2DT t p (r 0) (r 1) (r 2) (raw r 0) (raw r 1) (raw r 2) (raw r 3)))) t
      simp only [G4, DGDR2, D2GDR2DT]
      refine HasDerivAt.congr_deriv (by hd) ?_
      ring
  · intro t p r hr i
    fin_cases i
    · change HasDerivAt (fun p => DGDR0 t p (r 0) (r 1) (r 2) (raw r 0) (raw r 1) (raw r 2) (raw r 3)) (D2GDR0DP t p (r 0) (r 1) (r 2) (raw r 0) (raw r 1) (raw r 2) (raw r 3)) p
      simp only [DGDR0, D2GDR0DP]
      refine HasDerivAt.congr_deriv (by hd) ?_
      ring
    · change HasDerivAt (fun p => DGDR1 t p (r 0) (r 1) (r 2) (raw r 0) (raw r 1) (raw r 2) (raw r 3)) (D2GDR1DP t p (r 0) (r 1) (r 2) (raw r 0) (raw r 1) (raw r 2) (raw r 3)) p
      simp only [DGDR1, D2GDR1DP]
      refine HasDerivAt.congr_deriv (by hd) ?_
      ring
    · change HasDerivAt (fun p => DGDR2 t p (r 0) (r 1) (r 2) (raw r 0) (raw r 1) (raw r 2) (raw r 3)) (D2GDR2DP t p (r 0) (r 1) (r 2) (raw r 0) (raw r 1) (raw r 2) (raw r 3)) p
      simp only [G4, DGDR2, D2GDR2DP]
      refine HasDerivAt.congr_deriv (by hd) ?_
      ring
  · intro t p r hr h0 i
    fin_cases i
    · change HasDerivAt (fun t => -(D2GDR0DT t p (r 0) (r 1) (r 2) (raw r 0) (raw r 1) (raw r 2) (raw r 3))) (-t * (D3GDR0DT2 t p (r 0) (r 1) (r 2) (raw r 0) (raw r 1) (raw r 2) (raw r 3)) / t) t
      simp only [D2GDR0DT, D3GDR0DT2]
      refine HasDerivAt.congr_deriv (by hd) ?_
      first | ring | (field_simp; ring)
    · change HasDerivAt (fun t => -(D2GDR1DT t p (r 0) (r 1) (r 2) (raw r 0) (raw r 1) (raw r 2) (raw r 3))) (-t * (D3GDR1DT2 t p (r 0) (r 1) (r 2) (raw r 0) (raw r 1) (raw r 2) (raw r 3)) / t) t
      simp only [D2GDR1DT, D3GDR1DT2]
      refine HasDerivAt.congr_deriv (by hd) ?_
      first | ring | (field_simp; ring)
    · change HasDerivAt (fun t => -(D2GDR2DT t p (r 0) (r 1) (r 2) (raw r 0) (raw r 1) (raw r 2) (raw r 3))) (-t * (D3GDR2DT2 t p (r 0) (r 1) (r 2) (raw r 0) (raw r 1) (raw r 2) (raw r 3)) / t) t
      simp only [D2GDR2DT, D3GDR2DT2]
      refine HasDerivAt.congr_deriv (by hd) ?_
      first | ring | (field_simp; ring)
  · intro t p r hr
    refine grad_of_partials ?_ fun j => partial_of_update ?_
    · simp only [ofSites, F, D2GDP2]; dd
    · fin_cases j
      · change HasDerivAt (fun _ : ℝ => (0 : ℝ)) (0 : ℝ) _
        exact hasDerivAt_const _ _
      · change HasDerivAt (fun _ : ℝ => (0 : ℝ)) (0 : ℝ) _
        exact hasDerivAt_const _ _
      · change HasDerivAt (fun _ : ℝ => (0 : ℝ)) (0 : ℝ) _
        exact hasDerivAt_const _ _
  · intro t p r hr i j; fin_cases i <;> fin_cases j <;> rfl
  · intro t p r hr i j k; fin_cases i <;> fin_cases j <;> fin_cases k <;> exact ⟨rfl, rfl⟩
  · intro r hr; rfl

theorem dom_continuous (k : Fin 5) : Continuous fun r => dom r k := by
  fin_cases k
  · change Continuous fun r : Fin 3 → ℝ => r 0
    fun_prop
  · change Continuous fun r : Fin 3 → ℝ => (r 1 + r 2) / 4
    fun_prop
  · change Continuous fun r : Fin 3 → ℝ => 1 - r 0 - r 1 / 4 - r 2 / 2
    fun_prop
  · change Continuous fun r : Fin 3 → ℝ => r 2 / 4
    fun_prop
  · change Continuous fun r : Fin 3 → ℝ => (r 1 + r 2) / 4 - r 2 / 4
    fun_prop

/-- In the interior neither clamp has an effect: the four site fractions leave room for each other. -/
theorem clamp2_raw (r : Fin 3 → ℝ) (hr : Interior dom r) (k : Fin 4) : clamp2 (raw r k) = raw r k := by
  have h0 : r 0 > eps := hr 0
  have h1 : (r 1 + r 2) / 4 > eps := hr 1
  have h2 : 1 - r 0 - r 1 / 4 - r 2 / 2 > eps := hr 2
  have h3 : r 2 / 4 > eps := hr 3
  have h4 : (r 1 + r 2) / 4 - r 2 / 4 > eps := hr 4
  have he := eps_pos
  fin_cases k
  · exact clamp2_of h0 (show r 0 < 1 - eps by linarith)
  · exact clamp2_of h1 (show (r 1 + r 2) / 4 < 1 - eps by linarith)
  · exact clamp2_of h2 (show 1 - r 0 - r 1 / 4 - r 2 / 2 < 1 - eps by linarith)
  · exact clamp2_of h3 (show r 2 / 4 < 1 - eps by linarith)

theorem consistent : mix.Consistent (Interior dom) :=
  consistent_sites F raw _ (Interior dom) (isOpen_interior dom dom_continuous) (fun r hr => funext (clamp2_raw r hr))
    consistent_raw

/-- The dependent end member of kalsilite.c. -/
def dep : Fin 4 := 0

end Kalsilite

/-- **C24.** Kalsilite (kalsilite.c): derivatives, entropy, enthalpy, heat capacity and volume of mixing fit together. -/
theorem C24_kalsilite : Kalsilite.mix.Consistent (Interior Kalsilite.dom) := Kalsilite.consistent

/-- The interior contains the composition 1 / 4, 1 / 4, 1 / 4. -/
example : Interior Kalsilite.dom ![1 / 4, 1 / 4, 1 / 4] := by
  intro k
  fin_cases k
  · change ((1 / 4) : ℝ) > eps; unfold eps; norm_num
  · change (((1 / 4) + (1 / 4)) / 4 : ℝ) > eps; unfold eps; norm_num
  · change (1 - (1 / 4) - (1 / 4) / 4 - (1 / 4) / 2 : ℝ) > eps; unfold eps; norm_num
  · change ((1 / 4) / 4 : ℝ) > eps; unfold eps; norm_num
  · change ((1 / 4 + 1 / 4) / 4 - 1 / 4 / 4 : ℝ) > eps; unfold eps; norm_num

/-- **C24.** The chemical potentials `act*` returns are the derivatives of the total Gibbs energy of mixing. -/
theorem C24_kalsilite_potentials (t p : ℝ) (m : Fin 4 → ℝ) (h0 : ∑ i, m i ≠ 0)
    (hr : Interior Kalsilite.dom (toR Kalsilite.dep m)) (i : Fin 4) :
    Partial (fun m => (∑ i, m i) * Kalsilite.mix.g t p (toR Kalsilite.dep m)) m i
      (mu Kalsilite.mix Kalsilite.dep t p (toR Kalsilite.dep m) i) :=
  C24_potential_is_derivative _ _ Kalsilite.consistent _ t p m h0 hr i

/-- **C24.** The derivatives of the activities `act*` returns are their derivatives. -/
theorem C24_kalsilite_activities (t p : ℝ) (r : Fin 3 → ℝ) (hr : Interior Kalsilite.dom r) (i : Fin 4)
    (k : Fin 3) : Partial (fun r => act Kalsilite.mix Kalsilite.dep t p r i) r k (dact Kalsilite.mix Kalsilite.dep t p r i k) :=
  C24_activity_derivative _ _ Kalsilite.consistent (isOpen_interior _ Kalsilite.dom_continuous) _ t p r hr i k

end

end Magma.Thermo.Mixing
