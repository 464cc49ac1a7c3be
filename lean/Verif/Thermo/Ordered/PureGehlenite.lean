import Verif.Thermo.OrderTables

/-!
The pure end member gehlenite of melilite.c. Generated by /verif/tools/gen/genord.py from the macros of /repo/sources/melilite.c: one definition per macro, with the
macros it mentions as definitions (the generator checks that this has the value of C's textual substitution).
-/

namespace Verif.Thermo.Ordering

open Magma.Thermo.Mixing (R)

noncomputable section

set_option linter.unusedVariables false
set_option linter.unnecessarySeqFocus false
set_option linter.unusedSimpArgs false
set_option linter.unusedTactic false
set_option linter.unreachableTactic false

namespace PureGehlenite

/-- `GH_S`, melilite.c 463-464. -/
def S (s0 : ℝ) : ℝ :=
  (-R) * (2 * (1 - s0) * Real.log (1 - s0) + s0 * Real.log s0 + (1 + s0) * Real.log (1 + s0) - 2 * Real.log 2)

/-- `DG22p`, melilite.c 108. -/
def DG22p : ℝ :=
  12000

/-- `W22p`, melilite.c 113. -/
def W22p : ℝ :=
  38354

/-- `GH_H`, melilite.c 465. -/
def H (s0 : ℝ) : ℝ :=
  DG22p * s0 + W22p * s0 * (1 - s0)

/-- `GH_G`, melilite.c 466. -/
def G (t s0 : ℝ) : ℝ :=
  H s0 - t * (S s0)

/-- `DGH_GDS0`, melilite.c 468-469. -/
def DGDS0 (t s0 : ℝ) : ℝ :=
  R * t * ((-2) * Real.log (1 - s0) + Real.log s0 + Real.log (1 + s0)) + DG22p + W22p * (1 - 2 * s0)

/-- `DGH_GDT`, melilite.c 470. -/
def DGDT (s0 : ℝ) : ℝ :=
  -(S s0)

/-- `DGH_GDP`, melilite.c 471. -/
def DGDP : ℝ :=
  0

/-- `D2GH_GDS0S0`, melilite.c 473. -/
def D2GDS0S0 (t s0 : ℝ) : ℝ :=
  R * t * (2 / (1 - s0) + 1 / s0 + 1 / (1 + s0)) - 2 * W22p

/-- `D2GH_GDS0DT`, melilite.c 474. -/
def D2GDS0DT (s0 : ℝ) : ℝ :=
  R * ((-2) * Real.log (1 - s0) + Real.log s0 + Real.log (1 + s0))

/-- `D2GH_GDS0DP`, melilite.c 475. -/
def D2GDS0DP : ℝ :=
  0

/-- `D2GH_GDT2`, melilite.c 476. -/
def D2GDT2 : ℝ :=
  0

/-- `D2GH_GDTP`, melilite.c 477. -/
def D2GDTDP : ℝ :=
  0

/-- `D2GH_GDP2`, melilite.c 478. -/
def D2GDP2 : ℝ :=
  0

/-- `D3GH_GDS0S0S0`, melilite.c 480. -/
def D3GDS0S0S0 (t s0 : ℝ) : ℝ :=
  R * t * (2 / (1 - s0) ^ 2 - 1 / (s0 * s0) - 1 / (1 + s0) ^ 2)

/-- `D3GH_GDS0S0DT`, melilite.c 481. -/
def D3GDS0S0DT (s0 : ℝ) : ℝ :=
  R * (2 / (1 - s0) + 1 / s0 + 1 / (1 + s0))

/-- `D3GH_GDS0S0DP`, melilite.c 482. -/
def D3GDS0S0DP : ℝ :=
  0

/-- `D3GH_GDS0DT2`, melilite.c 483. -/
def D3GDS0DT2 : ℝ :=
  0

/-- `D3GH_GDS0DTDP`, melilite.c 484. -/
def D3GDS0DTDP : ℝ :=
  0

/-- `D3GH_GDS0DP2`, melilite.c 485. -/
def D3GDS0DP2 : ℝ :=
  0

/-- `D3GH_GDT3`, melilite.c 486. -/
def D3GDT3 : ℝ :=
  0

/-- `D3GH_GDT2DP`, melilite.c 487. -/
def D3GDT2DP : ℝ :=
  0

/-- `D3GH_GDTDP2`, melilite.c 488. -/
def D3GDTDP2 : ℝ :=
  0

/-- `D3GH_GDP3`, melilite.c 489. -/
def D3GDP3 : ℝ :=
  0

/-- The arrays as the functions of melilite.c fill them (lines 680-774), for site fractions `x` and variables `y`. -/
def tables (x : Fin 0 → ℝ) (y : Var 0 1 → ℝ) : Tables 0 1 where
g := G (y (.inl iT)) (y (.inr 0))
s := S (y (.inr 0))
dgdr := ![]
dgds := ![DGDS0 (y (.inl iT)) (y (.inr 0))]
dgdt := DGDT (y (.inr 0))
dgdp := DGDP
d2gdt2 := D2GDT2
d2gdtdp := D2GDTDP
d2gdp2 := D2GDP2
d3gdt3 := D3GDT3
d3gdt2dp := D3GDT2DP
d3gdtdp2 := D3GDTDP2
d3gdp3 := D3GDP3
d2gdr2 := ![]
d2gdrds := ![]
d2gdrdt := ![]
d2gdrdp := ![]
d2gds2 := ![![D2GDS0S0 (y (.inl iT)) (y (.inr 0))]]
d2gdsdt := ![D2GDS0DT (y (.inr 0))]
d2gdsdp := ![D2GDS0DP]
d3gdr3 := ![]
d3gdr2ds := ![]
d3gdr2dt := ![]
d3gdr2dp := ![]
d3gdrds2 := ![]
d3gdrdsdt := ![]
d3gdrdsdp := ![]
d3gdrdt2 := ![]
d3gdrdtdp := ![]
d3gdrdp2 := ![]
d3gds3 := ![![![D3GDS0S0S0 (y (.inl iT)) (y (.inr 0))]]]
d3gds2dt := ![![D3GDS0S0DT (y (.inr 0))]]
d3gds2dp := ![![D3GDS0S0DP]]
d3gdsdt2 := ![D3GDS0DT2]
d3gdsdtdp := ![D3GDS0DTDP]
d3gdsdp2 := ![D3GDS0DP2]

/-- Site fractions before they are kept inside their bounds, melilite.c. -/
def raw (y : Var 0 1 → ℝ) : Fin 0 → ℝ :=
  ![]

/-- Bounds applied to the site fractions, melilite.c. -/
def site (y : Var 0 1 → ℝ) : Fin 0 → ℝ :=
  ![]

/-- The macros of melilite.c at given composition, conditions and ordering state. -/
def macros (y : Var 0 1 → ℝ) : Tables 0 1 := tables (site y) y

/-- Where no bound on the site fractions is active. -/
def Dom (y : Var 0 1 → ℝ) : Prop :=
  0 < (y (.inr 0)) ∧ 0 < 1 - (y (.inr 0)) ∧ 0 < 1 + (y (.inr 0))

lemma hl (y u : Var 0 1 → ℝ) (i : Var 0 1) : HasDerivAt (fun v : ℝ => y i + v * u i) (u i) 0 := by
  simpa using ((hasDerivAt_id' (0 : ℝ)).mul_const (u i)).const_add (y i)

lemma pos (y : Var 0 1 → ℝ) (hy : Dom y) :
    0 < (y (.inr 0)) ∧ 0 < 1 - (y (.inr 0)) ∧ 0 < 1 + (y (.inr 0)) := by
  have he := dblEps_pos
  obtain ⟨h0, h1, h2⟩ := hy
  refine ⟨?_, ?_, ?_⟩ <;> first | linarith | assumption

lemma c_G {t p s0 : ℝ → ℝ} {v dt dp ds0 : ℝ} (ht : HasDerivAt t dt v) (hp : HasDerivAt p dp v) (hs0 : HasDerivAt s0
    ds0 v) (pq0 : 0 < (s0 v)) (pq1 : 0 < 1 - (s0 v)) (pq2 : 0 < 1 + (s0 v)) :
    HasDerivAt (fun v => G (t v) (s0 v))
    ((0) + ((DGDT (s0 v)) * dt + DGDP * dp) + ((DGDS0 (t v) (s0 v)) * ds0)) v := by
  have nq0 := pq0.ne'
  have nq1 := pq1.ne'
  have nq2 := pq2.ne'
  try simp only [H, S, G, DGDT, DGDP, DGDS0, zero_mul, mul_zero, add_zero, zero_add, sub_zero]
  refine HasDerivAt.congr_deriv (by hdo) ?_
  ring

lemma c_DGDS0 {t p s0 : ℝ → ℝ} {v dt dp ds0 : ℝ} (ht : HasDerivAt t dt v) (hp : HasDerivAt p dp v) (hs0 : HasDerivAt s0
    ds0 v) (pq0 : 0 < (s0 v)) (pq1 : 0 < 1 - (s0 v)) (pq2 : 0 < 1 + (s0 v)) :
    HasDerivAt (fun v => DGDS0 (t v) (s0 v))
    ((0) + ((D2GDS0DT (s0 v)) * dt + D2GDS0DP * dp) + ((D2GDS0S0 (t v) (s0 v)) * ds0)) v := by
  have nq0 := pq0.ne'
  have nq1 := pq1.ne'
  have nq2 := pq2.ne'
  try simp only [DGDS0, D2GDS0DT, D2GDS0DP, D2GDS0S0, zero_mul, mul_zero, add_zero, zero_add, sub_zero]
  refine HasDerivAt.congr_deriv (by hdo) ?_
  ring

lemma c_DGDT {t p s0 : ℝ → ℝ} {v dt dp ds0 : ℝ} (ht : HasDerivAt t dt v) (hp : HasDerivAt p dp v) (hs0 : HasDerivAt s0
    ds0 v) (pq0 : 0 < (s0 v)) (pq1 : 0 < 1 - (s0 v)) (pq2 : 0 < 1 + (s0 v)) :
    HasDerivAt (fun v => DGDT (s0 v))
    ((0) + (D2GDT2 * dt + D2GDTDP * dp) + ((D2GDS0DT (s0 v)) * ds0)) v := by
  have nq0 := pq0.ne'
  have nq1 := pq1.ne'
  have nq2 := pq2.ne'
  try simp only [S, DGDT, D2GDT2, D2GDTDP, D2GDS0DT, zero_mul, mul_zero, add_zero, zero_add, sub_zero]
  refine HasDerivAt.congr_deriv (by hdo) ?_
  ring

lemma c_DGDP {t p s0 : ℝ → ℝ} {v dt dp ds0 : ℝ} (ht : HasDerivAt t dt v) (hp : HasDerivAt p dp v) (hs0 : HasDerivAt s0
    ds0 v) :
    HasDerivAt (fun v => DGDP)
    ((0) + (D2GDTDP * dt + D2GDP2 * dp) + (D2GDS0DP * ds0)) v := by
  try simp only [DGDP, D2GDTDP, D2GDP2, D2GDS0DP, zero_mul, mul_zero, add_zero, zero_add, sub_zero]
  refine HasDerivAt.congr_deriv (by hdo) ?_
  ring

lemma c_D2GDS0S0 {t p s0 : ℝ → ℝ} {v dt dp ds0 : ℝ} (ht : HasDerivAt t dt v) (hp : HasDerivAt p dp v) (hs0 : HasDerivAt s0
    ds0 v) (pq0 : 0 < (s0 v)) (pq1 : 0 < 1 - (s0 v)) (pq2 : 0 < 1 + (s0 v)) :
    HasDerivAt (fun v => D2GDS0S0 (t v) (s0 v))
    ((0) + ((D3GDS0S0DT (s0 v)) * dt + D3GDS0S0DP * dp) + ((D3GDS0S0S0 (t v) (s0 v)) * ds0)) v := by
  have nq0 := pq0.ne'
  have nq1 := pq1.ne'
  have nq2 := pq2.ne'
  try simp only [D2GDS0S0, D3GDS0S0DT, D3GDS0S0DP, D3GDS0S0S0, zero_mul, mul_zero, add_zero, zero_add, sub_zero]
  refine HasDerivAt.congr_deriv (by hdo) ?_
  ring

lemma c_D2GDS0DT {t p s0 : ℝ → ℝ} {v dt dp ds0 : ℝ} (ht : HasDerivAt t dt v) (hp : HasDerivAt p dp v) (hs0 : HasDerivAt s0
    ds0 v) (pq0 : 0 < (s0 v)) (pq1 : 0 < 1 - (s0 v)) (pq2 : 0 < 1 + (s0 v)) :
    HasDerivAt (fun v => D2GDS0DT (s0 v))
    ((0) + (D3GDS0DT2 * dt + D3GDS0DTDP * dp) + ((D3GDS0S0DT (s0 v)) * ds0)) v := by
  have nq0 := pq0.ne'
  have nq1 := pq1.ne'
  have nq2 := pq2.ne'
  try simp only [D2GDS0DT, D3GDS0DT2, D3GDS0DTDP, D3GDS0S0DT, zero_mul, mul_zero, add_zero, zero_add, sub_zero]
  refine HasDerivAt.congr_deriv (by hdo) ?_
  ring

lemma c_D2GDS0DP {t p s0 : ℝ → ℝ} {v dt dp ds0 : ℝ} (ht : HasDerivAt t dt v) (hp : HasDerivAt p dp v) (hs0 : HasDerivAt s0
    ds0 v) :
    HasDerivAt (fun v => D2GDS0DP)
    ((0) + (D3GDS0DTDP * dt + D3GDS0DP2 * dp) + (D3GDS0S0DP * ds0)) v := by
  try simp only [D2GDS0DP, D3GDS0DTDP, D3GDS0DP2, D3GDS0S0DP, zero_mul, mul_zero, add_zero, zero_add, sub_zero]
  refine HasDerivAt.congr_deriv (by hdo) ?_
  ring

lemma c_D2GDT2 {t p s0 : ℝ → ℝ} {v dt dp ds0 : ℝ} (ht : HasDerivAt t dt v) (hp : HasDerivAt p dp v) (hs0 : HasDerivAt s0
    ds0 v) :
    HasDerivAt (fun v => D2GDT2)
    ((0) + (D3GDT3 * dt + D3GDT2DP * dp) + (D3GDS0DT2 * ds0)) v := by
  try simp only [D2GDT2, D3GDT3, D3GDT2DP, D3GDS0DT2, zero_mul, mul_zero, add_zero, zero_add, sub_zero]
  refine HasDerivAt.congr_deriv (by hdo) ?_
  ring

lemma c_D2GDTDP {t p s0 : ℝ → ℝ} {v dt dp ds0 : ℝ} (ht : HasDerivAt t dt v) (hp : HasDerivAt p dp v) (hs0 : HasDerivAt s0
    ds0 v) :
    HasDerivAt (fun v => D2GDTDP)
    ((0) + (D3GDT2DP * dt + D3GDTDP2 * dp) + (D3GDS0DTDP * ds0)) v := by
  try simp only [D2GDTDP, D3GDT2DP, D3GDTDP2, D3GDS0DTDP, zero_mul, mul_zero, add_zero, zero_add, sub_zero]
  refine HasDerivAt.congr_deriv (by hdo) ?_
  ring

lemma c_D2GDP2 {t p s0 : ℝ → ℝ} {v dt dp ds0 : ℝ} (ht : HasDerivAt t dt v) (hp : HasDerivAt p dp v) (hs0 : HasDerivAt s0
    ds0 v) :
    HasDerivAt (fun v => D2GDP2)
    ((0) + (D3GDTDP2 * dt + D3GDP3 * dp) + (D3GDS0DP2 * ds0)) v := by
  try simp only [D2GDP2, D3GDTDP2, D3GDP3, D3GDS0DP2, zero_mul, mul_zero, add_zero, zero_add, sub_zero]
  refine HasDerivAt.congr_deriv (by hdo) ?_
  ring

attribute [local irreducible] S H G DGDS0 DGDT D2GDS0S0 D2GDS0DT D3GDS0S0S0 D3GDS0S0DT

lemma gr_g (y : Var 0 1 → ℝ) (hy : Dom y) :
    Gr (fun y => (tables (raw y) y).g) y ((tables (raw y) y).at1) := by
  refine Gr.of_lines ?_ fun u => ?_
  · have hp := pos y hy
    change DifferentiableAt ℝ (fun y => G (y (.inl iT)) (y (.inr 0))) y
    have qx0 := hp.1
    have nx0 := qx0.ne'
    have qx1 := hp.2.1
    have nx1 := qx1.ne'
    have qx2 := hp.2.2
    have nx2 := qx2.ne'
    try simp only [H, S, G, zero_mul, mul_zero, add_zero, zero_add, sub_zero]
    ddo
  · have hp := pos y hy
    have h := c_G (hl y u ((.inl iT))) (hl y u ((.inl iP))) (hl y u ((.inr 0))) (by simpa only [zero_mul,
        add_zero] using hp.1) (by simpa only [zero_mul, add_zero] using hp.2.1) (by simpa only
        [zero_mul, add_zero] using hp.2.2)
    try simp only [zero_mul, add_zero] at h
    refine h.congr_deriv ?_
    rw [sum_var]; simp only [Fin.sum_univ_one, Fin.sum_univ_zero]; rfl

lemma gr_dgds_0 (y : Var 0 1 → ℝ) (hy : Dom y) :
    Gr (fun y => (tables (raw y) y).dgds 0) y ((tables (raw y) y).at2 (.inr 0)) := by
  refine Gr.of_lines ?_ fun u => ?_
  · have hp := pos y hy
    change DifferentiableAt ℝ (fun y => DGDS0 (y (.inl iT)) (y (.inr 0))) y
    have qx0 := hp.1
    have nx0 := qx0.ne'
    have qx1 := hp.2.1
    have nx1 := qx1.ne'
    have qx2 := hp.2.2
    have nx2 := qx2.ne'
    try simp only [DGDS0, zero_mul, mul_zero, add_zero, zero_add, sub_zero]
    ddo
  · have hp := pos y hy
    have h := c_DGDS0 (hl y u ((.inl iT))) (hl y u ((.inl iP))) (hl y u ((.inr 0))) (by simpa only [zero_mul,
        add_zero] using hp.1) (by simpa only [zero_mul, add_zero] using hp.2.1) (by simpa only
        [zero_mul, add_zero] using hp.2.2)
    try simp only [zero_mul, add_zero] at h
    refine h.congr_deriv ?_
    rw [sum_var]; simp only [Fin.sum_univ_one, Fin.sum_univ_zero]; rfl

lemma gr_dgdt (y : Var 0 1 → ℝ) (hy : Dom y) :
    Gr (fun y => (tables (raw y) y).dgdt) y ((tables (raw y) y).at2 (.inl iT)) := by
  refine Gr.of_lines ?_ fun u => ?_
  · have hp := pos y hy
    change DifferentiableAt ℝ (fun y => DGDT (y (.inr 0))) y
    have qx0 := hp.1
    have nx0 := qx0.ne'
    have qx1 := hp.2.1
    have nx1 := qx1.ne'
    have qx2 := hp.2.2
    have nx2 := qx2.ne'
    try simp only [S, DGDT, zero_mul, mul_zero, add_zero, zero_add, sub_zero]
    ddo
  · have hp := pos y hy
    have h := c_DGDT (hl y u ((.inl iT))) (hl y u ((.inl iP))) (hl y u ((.inr 0))) (by simpa only [zero_mul,
        add_zero] using hp.1) (by simpa only [zero_mul, add_zero] using hp.2.1) (by simpa only
        [zero_mul, add_zero] using hp.2.2)
    try simp only [zero_mul, add_zero] at h
    refine h.congr_deriv ?_
    rw [sum_var]; simp only [Fin.sum_univ_one, Fin.sum_univ_zero]; rfl

lemma gr_dgdp (y : Var 0 1 → ℝ) (hy : Dom y) :
    Gr (fun y => (tables (raw y) y).dgdp) y ((tables (raw y) y).at2 (.inl iP)) := by
  refine Gr.of_lines ?_ fun u => ?_
  · have hp := pos y hy
    change DifferentiableAt ℝ (fun y => DGDP) y
    have qx0 := hp.1
    have nx0 := qx0.ne'
    have qx1 := hp.2.1
    have nx1 := qx1.ne'
    have qx2 := hp.2.2
    have nx2 := qx2.ne'
    try simp only [DGDP, zero_mul, mul_zero, add_zero, zero_add, sub_zero]
    ddo
  · have hp := pos y hy
    have h := c_DGDP (hl y u ((.inl iT))) (hl y u ((.inl iP))) (hl y u ((.inr 0)))
    try simp only [zero_mul, add_zero] at h
    refine h.congr_deriv ?_
    rw [sum_var]; simp only [Fin.sum_univ_one, Fin.sum_univ_zero]; rfl

lemma gr_d2gds2_0_0 (y : Var 0 1 → ℝ) (hy : Dom y) :
    Gr (fun y => (tables (raw y) y).d2gds2 0 0) y ((tables (raw y) y).at3 (.inr 0) (.inr 0)) := by
  refine Gr.of_lines ?_ fun u => ?_
  · have hp := pos y hy
    change DifferentiableAt ℝ (fun y => D2GDS0S0 (y (.inl iT)) (y (.inr 0))) y
    have qx0 := hp.1
    have nx0 := qx0.ne'
    have qx1 := hp.2.1
    have nx1 := qx1.ne'
    have qx2 := hp.2.2
    have nx2 := qx2.ne'
    try simp only [D2GDS0S0, zero_mul, mul_zero, add_zero, zero_add, sub_zero]
    ddo
  · have hp := pos y hy
    have h := c_D2GDS0S0 (hl y u ((.inl iT))) (hl y u ((.inl iP))) (hl y u ((.inr 0))) (by simpa only [zero_mul,
        add_zero] using hp.1) (by simpa only [zero_mul, add_zero] using hp.2.1) (by simpa only
        [zero_mul, add_zero] using hp.2.2)
    try simp only [zero_mul, add_zero] at h
    refine h.congr_deriv ?_
    rw [sum_var]; simp only [Fin.sum_univ_one, Fin.sum_univ_zero]; rfl

lemma gr_d2gdsdt_0 (y : Var 0 1 → ℝ) (hy : Dom y) :
    Gr (fun y => (tables (raw y) y).d2gdsdt 0) y ((tables (raw y) y).at3 (.inr 0) (.inl iT)) := by
  refine Gr.of_lines ?_ fun u => ?_
  · have hp := pos y hy
    change DifferentiableAt ℝ (fun y => D2GDS0DT (y (.inr 0))) y
    have qx0 := hp.1
    have nx0 := qx0.ne'
    have qx1 := hp.2.1
    have nx1 := qx1.ne'
    have qx2 := hp.2.2
    have nx2 := qx2.ne'
    try simp only [D2GDS0DT, zero_mul, mul_zero, add_zero, zero_add, sub_zero]
    ddo
  · have hp := pos y hy
    have h := c_D2GDS0DT (hl y u ((.inl iT))) (hl y u ((.inl iP))) (hl y u ((.inr 0))) (by simpa only [zero_mul,
        add_zero] using hp.1) (by simpa only [zero_mul, add_zero] using hp.2.1) (by simpa only
        [zero_mul, add_zero] using hp.2.2)
    try simp only [zero_mul, add_zero] at h
    refine h.congr_deriv ?_
    rw [sum_var]; simp only [Fin.sum_univ_one, Fin.sum_univ_zero]; rfl

lemma gr_d2gdsdp_0 (y : Var 0 1 → ℝ) (hy : Dom y) :
    Gr (fun y => (tables (raw y) y).d2gdsdp 0) y ((tables (raw y) y).at3 (.inr 0) (.inl iP)) := by
  refine Gr.of_lines ?_ fun u => ?_
  · have hp := pos y hy
    change DifferentiableAt ℝ (fun y => D2GDS0DP) y
    have qx0 := hp.1
    have nx0 := qx0.ne'
    have qx1 := hp.2.1
    have nx1 := qx1.ne'
    have qx2 := hp.2.2
    have nx2 := qx2.ne'
    try simp only [D2GDS0DP, zero_mul, mul_zero, add_zero, zero_add, sub_zero]
    ddo
  · have hp := pos y hy
    have h := c_D2GDS0DP (hl y u ((.inl iT))) (hl y u ((.inl iP))) (hl y u ((.inr 0)))
    try simp only [zero_mul, add_zero] at h
    refine h.congr_deriv ?_
    rw [sum_var]; simp only [Fin.sum_univ_one, Fin.sum_univ_zero]; rfl

lemma gr_d2gdt2 (y : Var 0 1 → ℝ) (hy : Dom y) :
    Gr (fun y => (tables (raw y) y).d2gdt2) y ((tables (raw y) y).at3 (.inl iT) (.inl iT)) := by
  refine Gr.of_lines ?_ fun u => ?_
  · have hp := pos y hy
    change DifferentiableAt ℝ (fun y => D2GDT2) y
    have qx0 := hp.1
    have nx0 := qx0.ne'
    have qx1 := hp.2.1
    have nx1 := qx1.ne'
    have qx2 := hp.2.2
    have nx2 := qx2.ne'
    try simp only [D2GDT2, zero_mul, mul_zero, add_zero, zero_add, sub_zero]
    ddo
  · have hp := pos y hy
    have h := c_D2GDT2 (hl y u ((.inl iT))) (hl y u ((.inl iP))) (hl y u ((.inr 0)))
    try simp only [zero_mul, add_zero] at h
    refine h.congr_deriv ?_
    rw [sum_var]; simp only [Fin.sum_univ_one, Fin.sum_univ_zero]; rfl

lemma gr_d2gdtdp (y : Var 0 1 → ℝ) (hy : Dom y) :
    Gr (fun y => (tables (raw y) y).d2gdtdp) y ((tables (raw y) y).at3 (.inl iT) (.inl iP)) := by
  refine Gr.of_lines ?_ fun u => ?_
  · have hp := pos y hy
    change DifferentiableAt ℝ (fun y => D2GDTDP) y
    have qx0 := hp.1
    have nx0 := qx0.ne'
    have qx1 := hp.2.1
    have nx1 := qx1.ne'
    have qx2 := hp.2.2
    have nx2 := qx2.ne'
    try simp only [D2GDTDP, zero_mul, mul_zero, add_zero, zero_add, sub_zero]
    ddo
  · have hp := pos y hy
    have h := c_D2GDTDP (hl y u ((.inl iT))) (hl y u ((.inl iP))) (hl y u ((.inr 0)))
    try simp only [zero_mul, add_zero] at h
    refine h.congr_deriv ?_
    rw [sum_var]; simp only [Fin.sum_univ_one, Fin.sum_univ_zero]; rfl

lemma gr_d2gdp2 (y : Var 0 1 → ℝ) (hy : Dom y) :
    Gr (fun y => (tables (raw y) y).d2gdp2) y ((tables (raw y) y).at3 (.inl iP) (.inl iP)) := by
  refine Gr.of_lines ?_ fun u => ?_
  · have hp := pos y hy
    change DifferentiableAt ℝ (fun y => D2GDP2) y
    have qx0 := hp.1
    have nx0 := qx0.ne'
    have qx1 := hp.2.1
    have nx1 := qx1.ne'
    have qx2 := hp.2.2
    have nx2 := qx2.ne'
    try simp only [D2GDP2, zero_mul, mul_zero, add_zero, zero_add, sub_zero]
    ddo
  · have hp := pos y hy
    have h := c_D2GDP2 (hl y u ((.inl iT))) (hl y u ((.inl iP))) (hl y u ((.inr 0)))
    try simp only [zero_mul, add_zero] at h
    refine h.congr_deriv ?_
    rw [sum_var]; simp only [Fin.sum_univ_one, Fin.sum_univ_zero]; rfl

lemma symm (x : Fin 0 → ℝ) (y : Var 0 1 → ℝ) : (tables x y).Symm := by
  constructor
  · intro i j; fin_cases i <;> fin_cases j <;> rfl
  · intro i j; fin_cases i <;> fin_cases j <;> rfl
  · intro i j k; fin_cases i <;> fin_cases j <;> fin_cases k <;> exact ⟨rfl, rfl⟩
  · intro i j k; fin_cases i <;> fin_cases j <;> fin_cases k <;> rfl
  · intro i j; fin_cases i <;> fin_cases j <;> rfl
  · intro i j; fin_cases i <;> fin_cases j <;> rfl
  · intro i j k; fin_cases i <;> fin_cases j <;> fin_cases k <;> rfl
  · intro i j k; fin_cases i <;> fin_cases j <;> fin_cases k <;> exact ⟨rfl, rfl⟩
  · intro i j; fin_cases i <;> fin_cases j <;> rfl
  · intro i j; fin_cases i <;> fin_cases j <;> rfl

lemma ok_raw : (jets fun y => tables (raw y) y).Ok Dom := by
  refine jets_ok (fun y _ => symm (raw y) y) gr_g ?_ gr_dgdt gr_dgdp ?_ ?_ ?_ ?_ ?_ ?_ ?_ ?_ gr_d2gdt2 gr_d2gdtdp gr_d2gdp2
  · intro y hy i
    fin_cases i
  · intro y hy i
    fin_cases i
    · exact gr_dgds_0 y hy
  · intro y hy i j
    fin_cases i <;> fin_cases j
  · intro y hy i j
    fin_cases i <;> fin_cases j
  · intro y hy i
    fin_cases i
  · intro y hy i
    fin_cases i
  · intro y hy i j
    fin_cases i <;> fin_cases j
    · exact gr_d2gds2_0_0 y hy
  · intro y hy i
    fin_cases i
    · exact gr_d2gdsdt_0 y hy
  · intro y hy i
    fin_cases i
    · exact gr_d2gdsdp_0 y hy

lemma site_eq (y : Var 0 1 → ℝ) (hy : Dom y) : site y = raw y := by
  funext k; exact k.elim0

lemma dom_open : IsOpen {y | Dom y} := by
  exact (isOpen_lt continuous_const (by fun_prop : Continuous fun y : Var 0 1 → ℝ => (y (.inr 0)))).inter
    ((isOpen_lt continuous_const (by fun_prop : Continuous fun y : Var 0 1 → ℝ => 1 - (y (.inr 0)))).inter
    (isOpen_lt continuous_const (by fun_prop : Continuous fun y : Var 0 1 → ℝ => 1 + (y (.inr 0)))))

/-- The arrays of melilite.c are the derivatives of its Gibbs energy to third order. -/
theorem ok : (jets macros).Ok Dom :=
  ok_congr dom_open (fun y hy => by unfold macros; rw [site_eq y hy]) ok_raw

lemma entropy_eq (y : Var 0 1 → ℝ) : (jets macros).g1 y (.inl iT) = -(macros y).s := by
  change DGDT (y (.inr 0)) = -(S (y (.inr 0)))
  simp only [DGDT]

end PureGehlenite

end

end Verif.Thermo.Ordering
