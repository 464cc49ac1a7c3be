import Verif.Thermo.LiquidStd

/-!
# A lambda transition that moves with pressure (C64)

`sources/gibbs.c` 1742-1899 and 2043-2168: the contribution to quartz and cristobalite.
-/

open Filter Topology Real

namespace Verif.Thermo.StdState

/-! ## The code -/

/-- The contribution of a lambda transition whose temperature rises by `k` per bar, below the
transition (`gibbs.c` 1742-1899 for quartz with `tb` 373; 2043-2168 for cristobalite and 1963-1978 for
tridymite with `tb` the reference temperature; tridymite has `k = 0`, for which the code computes no
volume terms and they vanish here).  `delt` is the reference transition temperature less the one at
`p`. -/
noncomputable def lamP (l1 l2 tb k t p : ℝ) : Std :=
  let δ := -(k * (p - 1))
  let dd := -k
  let a := tb - δ
  let x1 := l1 * l1 * δ + 2 * l1 * l2 * δ * δ + l2 * l2 * δ * δ * δ
  let dx1 := l1 * l1 * dd + 4 * l1 * l2 * δ * dd + 3 * l2 * l2 * δ * δ * dd
  let d2x1 := 4 * l1 * l2 * dd * dd + 6 * l2 * l2 * δ * dd * dd
  let d3x1 := 6 * l2 * l2 * dd * dd * dd
  let x2 := l1 * l1 + 4 * l1 * l2 * δ + 3 * l2 * l2 * δ * δ
  let dx2 := 4 * l1 * l2 * dd + 6 * l2 * l2 * δ * dd
  let d2x2 := 6 * l2 * l2 * dd * dd
  let d3x2 : ℝ := 0
  let x3 := 2 * l1 * l2 + 3 * l2 * l2 * δ
  let dx3 := 3 * l2 * l2 * dd
  let d2x3 : ℝ := 0
  let d3x3 : ℝ := 0
  let x4 := l2 * l2
  let dx4 : ℝ := 0
  let d2x4 : ℝ := 0
  let d3x4 : ℝ := 0
  let hs := x1 * (t - a) + x2 * (t * t - a ^ 2) / 2 + x3 * (t * t * t - a ^ 3) / 3 + x4 * (t *
      t * t * t - a ^ 4) / 4
  let ss := x1 * (Real.log t - Real.log a) + x2 * (t - a) + x3 * (t * t - a ^ 2) / 2 + x4 * (t
      * t * t - a ^ 3) / 3
  let lv := dx1 * (t - a) + dx2 * (t * t - a ^ 2) / 2 + dx3 * (t * t * t - a ^ 3) / 3 + dx4 *
      (t * t * t * t - a ^ 4) / 4 - t * (dx1 * (Real.log t - Real.log a) + dx2 * (t - a) + dx3
      * (t * t - a ^ 2) / 2 + dx4 * (t * t * t - a ^ 3) / 3) + x1 * dd + x2 * a * dd + x3 * a
      ^ 2 * dd + x4 * a ^ 3 * dd - t * (x1 * dd / a + x2 * dd + x3 * a * dd + x4 * a ^ 2 * dd)
  let lvt := dx1 + dx2 * t + dx3 * t * t + dx4 * t * t * t - (dx1 * (Real.log t - Real.log a)
      + dx2 * (t - a) + dx3 * (t * t - a ^ 2) / 2 + dx4 * (t * t * t - a ^ 3) / 3) - t * (dx1
      / t + dx2 + dx3 * t + dx4 * t * t) - (x1 * dd / a + x2 * dd + x3 * a * dd + x4 * a ^ 2 *
      dd)
  let lvp := d2x1 * (t - a) + dx1 * dd + d2x2 * (t * t - a ^ 2) / 2 + dx2 * a * dd + d2x3 * (t
      * t * t - a ^ 3) / 3 + dx3 * a ^ 2 * dd + d2x4 * (t * t * t * t - a ^ 4) / 4 + dx4 * a ^
      3 * dd - t * (d2x1 * (Real.log t - Real.log a) + dx1 * dd / a + d2x2 * (t - a) + dx2 *
      dd + d2x3 * (t * t - a ^ 2) / 2 + dx3 * a * dd + d2x4 * (t * t * t - a ^ 3) / 3 + dx4 *
      a ^ 2 * dd) + dx1 * dd + dx2 * a * dd - x2 * dd * dd + dx3 * a ^ 2 * dd - x3 * 2 * a *
      dd ^ 2 + dx4 * a ^ 3 * dd - x4 * 3 * a ^ 2 * dd ^ 2 - t * (dx1 * dd / a + x1 * dd ^ 2 /
      a ^ 2 + dx2 * dd + dx3 * a * dd - x3 * dd ^ 2 + dx4 * a ^ 2 * dd - x4 * 2 * a * dd ^ 2)
  let lvtt := dx2 + 2 * dx3 * t + 3 * dx4 * t * t - 2 * (dx1 / t + dx2 + dx3 * t + dx4 * t *
      t) - t * (-dx1 / (t * t) + dx3 + 2 * dx4 * t)
  let lvtp := d2x1 + d2x2 * t + d2x3 * t * t + d2x4 * t * t * t - (d2x1 * (Real.log t -
      Real.log a) + dx1 * dd / a + d2x2 * (t - a) + dx2 * dd + d2x3 * (t * t - a ^ 2) / 2 +
      dx3 * a * dd + d2x4 * (t * t * t - a ^ 3) / 3 + dx4 * a ^ 2 * dd) - t * (d2x1 / t + d2x2
      + d2x3 * t + d2x4 * t * t) - (dx1 * dd / a + x1 * dd ^ 2 / a ^ 2 + dx2 * dd + dx3 * a *
      dd - x3 * dd ^ 2 + dx4 * a ^ 2 * dd - x4 * 2 * a * dd ^ 2)
  let lvpp := d3x1 * (t - a) + d2x1 * dd + d2x1 * dd + d3x2 * (t * t - a ^ 2) / 2 + d2x2 * a *
      dd + d2x2 * a * dd - dx2 * dd ^ 2 + d3x3 * (t * t * t - a ^ 3) / 3 + d2x3 * a ^ 2 * dd +
      d2x3 * a ^ 2 * dd - dx3 * 2 * a * dd ^ 2 + d3x4 * (t * t * t * t - a ^ 4) / 4 + d2x4 * a
      ^ 3 * dd + d2x4 * a ^ 3 * dd - dx4 * 3 * a ^ 2 * dd ^ 2 - t * (d3x1 * (Real.log t -
      Real.log a) + d2x1 * dd / a + d2x1 * dd / a + dx1 * (dd / a) ^ 2 + d3x2 * (t - a) + d2x2
      * dd + d2x2 * dd + d3x3 * (t * t - a ^ 2) / 2 + d2x3 * a * dd + d2x3 * a * dd - dx3 * dd
      ^ 2 + d3x4 * (t * t * t - a ^ 3) / 3 + d2x4 * a ^ 2 * dd + d2x4 * a ^ 2 * dd - dx4 * 2 *
      a * dd ^ 2) + d2x1 * dd + d2x2 * a * dd - dx2 * dd ^ 2 - dx2 * dd * dd + d2x3 * a ^ 2 *
      dd - dx3 * 2 * a * dd ^ 2 - dx3 * 2 * a * dd ^ 2 + x3 * 2 * dd ^ 3 + d2x4 * a ^ 3 * dd -
      dx4 * 3 * a ^ 2 * dd ^ 2 - dx4 * 3 * a ^ 2 * dd ^ 2 + x4 * 6 * a * dd ^ 3 - t * (d2x1 *
      dd / a + dx1 * (dd / a) ^ 2 + dx1 * (dd / a) ^ 2 + x1 * 2 * (dd / a) ^ 3 + d2x2 * dd +
      d2x3 * a * dd - dx3 * dd ^ 2 - dx3 * dd ^ 2 + d2x4 * a ^ 2 * dd - dx4 * 2 * a * dd ^ 2 -
      dx4 * 2 * a * dd ^ 2 + x4 * 2 * dd ^ 3)
  { g := hs - t * ss
    h := hs
    s := ss
    v := lv
    cp := (t + δ) * (l1 + l2 * (t + δ)) ^ 2
    dcpdt := (l1 + l2 * (t + δ)) ^ 2 + (t + δ) * 2 * (l1 + l2 * (t + δ)) * l2
    dvdt := lvt
    dvdp := lvp
    d2vdt2 := lvtt
    d2vdp2 := lvpp
    d2vdtdp := lvtp }

/-- Differentiates by the rules. -/
macro "der" : tactic => `(tactic| repeat' first
  | exact hasDerivAt_const _ _
  | exact hasDerivAt_id' _
  | assumption
  | with_reducible apply HasDerivAt.fun_pow
  | with_reducible apply HasDerivAt.div_const
  | with_reducible apply HasDerivAt.fun_add
  | with_reducible apply HasDerivAt.fun_sub
  | with_reducible apply HasDerivAt.fun_mul
  | with_reducible apply HasDerivAt.fun_neg
  | with_reducible apply HasDerivAt.fun_div
  | with_reducible apply HasDerivAt.log)

set_option maxHeartbeats 4000000 in
lemma lamP_consistent (l1 l2 tb k : ℝ) {t p : ℝ} (ht : 0 < t) (ha : tb - -(k * (p - 1)) ≠ 0) :
    Consistent (lamP l1 l2 tb k) t p := by
  have ht' : t ≠ 0 := ht.ne'
  have ha2 : (tb - -(k * (p - 1))) ^ 2 ≠ 0 := pow_ne_zero 2 ha
  constructor
  · rfl
  all_goals
    simp only [lamP]
    apply HasDerivAt.congr_deriv
    · der
    · generalize Real.log t = L
      try generalize Real.log _ = M
      obtain ⟨a, haa⟩ : ∃ a, a = tb - -(k * (p - 1)) := ⟨_, rfl⟩
      rw [← haa] at ha ha2
      try rw [← haa]
      have hk : k * (p - 1) = a - tb := by linarith
      rw [hk]
      push_cast
      field_simp
      ring

end Verif.Thermo.StdState
