import Verif.Thermo.Water.HaarProps

/-!
# Water above 10 kbar (`wdh78`), the search for the density, and the record `gibbs` returns
-/

open Filter Topology Real

namespace Verif.Thermo.Water

open StdState (Std Consistent)

/-! ## `wdh78` -/

/-- The table `a` (`water.c` 716-722), with its row `j` and column `l`. -/
noncomputable def dhTable : List (ℝ × ℕ × ℕ) := [
  (-5.6130073e+04, 0, 0), (3.8101798e-01, 0, 1), (-2.1167697e-06, 0, 2), (2.0266445e-11, 0, 3),
  (-8.3225572e-17, 0, 4), (-1.5285559e+01, 1, 0), (1.3752390e-04, 1, 1), (-1.5586868e-09, 1, 2),
  (6.6329577e-15, 1, 3), (-2.6092451e-02, 2, 0), (3.5988857e-08, 2, 1), (-2.7916588e-14, 2, 2),
  (1.7140501e-05, 3, 0), (-1.6860893e-11, 3, 1), (-6.0126987e-09, 4, 0)]

/-- The contribution of one entry of the table to the sums (`water.c` 735-804, and again 831-901), as
functions of the temperature in Celsius and the pressure; `r` stands for pressure in the names of the
derivatives. -/
noncomputable def dhTerm (e : ℝ × ℕ × ℕ) (t p : ℝ) : J :=
  let a := e.1
  let j := e.2.1
  let l := e.2.2
  if j = 0 ∧ l = 0 then ⟨a, 0, 0, 0, 0, 0, 0, 0, 0, 0⟩
  else if j = 0 ∧ l ≠ 0 then
    { v := a * p ^ l
      r := (if l = 1 then l * a else 0) + (if 1 < l then l * a * p ^ (l - 1) else 0)
      rr := (if l = 2 then l * (l - 1) * a else 0) + (if 2 < l then l * (l - 1) * a * p ^ (l - 2) else 0)
      rrr := (if l = 3 then l * (l - 1) * (l - 2) * a else 0)
        + (if 3 < l then l * (l - 1) * (l - 2) * a * p ^ (l - 3) else 0)
      t := 0, tt := 0, tr := 0, ttt := 0, ttr := 0, trr := 0 }
  else if j ≠ 0 ∧ l = 0 then
    { v := a * t ^ j
      t := (if j = 1 then j * a else 0) + (if 1 < j then j * a * t ^ (j - 1) else 0)
      tt := (if j = 2 then j * (j - 1) * a else 0) + (if 2 < j then j * (j - 1) * a * t ^ (j - 2) else 0)
      ttt := (if j = 3 then j * (j - 1) * (j - 2) * a else 0)
        + (if 3 < j then j * (j - 1) * (j - 2) * a * t ^ (j - 3) else 0)
      r := 0, tr := 0, rr := 0, ttr := 0, trr := 0, rrr := 0 }
  else
    { v := a * t ^ j * p ^ l
      r := (if l = 1 then l * a * t ^ j else 0) + (if 1 < l then l * a * t ^ j * p ^ (l - 1) else 0)
      rr := (if l = 2 then l * (l - 1) * a * t ^ j else 0)
        + (if 2 < l then l * (l - 1) * a * t ^ j * p ^ (l - 2) else 0)
      rrr := (if l = 3 then l * (l - 1) * (l - 2) * a * t ^ j else 0)
        + (if 3 < l then l * (l - 1) * (l - 2) * a * t ^ j * p ^ (l - 3) else 0)
      t := (if j = 1 then j * a * p ^ l else 0) + (if 1 < j then j * a * t ^ (j - 1) * p ^ l else 0)
      tt := (if j = 2 then j * (j - 1) * a * p ^ l else 0)
        + (if 2 < j then j * (j - 1) * a * t ^ (j - 2) * p ^ l else 0)
      ttt := (if j = 3 then j * (j - 1) * (j - 2) * a * p ^ l else 0)
        + (if 3 < j then j * (j - 1) * (j - 2) * a * t ^ (j - 3) * p ^ l else 0)
      tr := (if j = 1 ∧ l = 1 then j * l * a else 0)
        + (if 1 < j ∧ l = 1 then j * l * a * t ^ (j - 1) else 0)
        + (if j = 1 ∧ 1 < l then j * l * a * p ^ (l - 1) else 0)
        + (if 1 < j ∧ 1 < l then j * l * a * t ^ (j - 1) * p ^ (l - 1) else 0)
      ttr := (if j = 2 ∧ l = 1 then j * (j - 1) * l * a else 0)
        + (if 2 < j ∧ l = 1 then j * (j - 1) * l * a * t ^ (j - 2) else 0)
        + (if j = 2 ∧ 1 < l then j * (j - 1) * l * a * p ^ (l - 1) else 0)
        + (if 2 < j ∧ 1 < l then j * (j - 1) * l * a * t ^ (j - 2) * p ^ (l - 1) else 0)
      trr := (if j = 1 ∧ l = 2 then j * l * (l - 1) * a else 0)
        + (if 1 < j ∧ l = 2 then j * (j - 1) * l * (l - 1) * a * t ^ (j - 1) else 0)
        + (if j = 1 ∧ 2 < l then j * l * (l - 1) * a * p ^ (l - 2) else 0)
        + (if 1 < j ∧ 2 < l then j * l * (l - 1) * a * t ^ (j - 2) * p ^ (l - 1) else 0) }

/-- The sums at a temperature in kelvin and a pressure in bar (`water.c` 725, 733-805). -/
noncomputable def dhJ (tk p : ℝ) : J := (dhTable.map fun e => dhTerm e (tk - 273.15) p).sum

/-- The properties in calories (`water.c` 806-827 and 903-912).  The enthalpy is written with a plus
sign in the source. -/
noncomputable def dhProps (tk : ℝ) (G : J) : Std where
  g := G.v
  h := G.v + tk * G.t
  s := -G.t
  v := G.r
  cp := -tk * G.tt
  dcpdt := -G.tt - tk * G.ttt
  dvdt := G.tr
  dvdp := G.rr
  d2vdt2 := G.ttr
  d2vdp2 := G.rrr
  d2vdtdp := G.trr

/-- The outputs of `wdh78` (`water.c` 914-924): differences from 10 kbar in joules for the energies,
totals in cm³ for the volumes. -/
noncomputable def wdh78 (tk p : ℝ) : Std :=
  let x := dhProps tk (dhJ tk p)
  let y := dhProps tk (dhJ tk 10000)
  ⟨(x.g - y.g) * 4.184, (x.h - y.h) * 4.184, (x.s - y.s) * 4.184, x.v * 41.84, (x.cp - y.cp) * 4.184,
    (x.dcpdt - y.dcpdt) * 4.184, x.dvdt * 41.84, x.dvdp * 41.84, x.d2vdt2 * 41.84, x.d2vdp2 * 41.84,
    x.d2vdtdp * 41.84⟩

/-! ## What `gibbs` reports for water -/

/-- Volumes from cm³ to joules per bar (`gibbs.c` 2364-2375). -/
noncomputable def joules (x : Std) : Std :=
  ⟨x.g, x.h, x.s, x.v / 10, x.cp, x.dcpdt, x.dvdt / 10, x.dvdp / 10, x.d2vdt2 / 10, x.d2vdp2 / 10,
    x.d2vdtdp / 10⟩

open Classical in
/-- The phase `water` in the MELTS modes (`gibbs.c` 2342-2375), for a density function `ρ`: what
`whaar` finds at a temperature and pressure. -/
noncomputable def water (ρ : ℝ × ℝ → ℝ) (t p : ℝ) : Std :=
  let pHaar := if p ≤ 10000 then p else 10000
  let w := atDensity true t (ρ (t, pHaar))
  if 10000 < p then
    let d := wdh78 t p
    joules ⟨w.g + d.g, w.h + d.h, w.s + d.s, d.v, w.cp + d.cp, w.dcpdt + d.dcpdt, d.dvdt, d.dvdp,
      d.d2vdt2, d.d2vdp2, d.d2vdtdp⟩
  else joules w

/-! ## The search for the density -/

/-- One term of the sum over rows 37 to 40 in the loop (`water.c` 255-262): `q10*qm*rh*rh/rhoi`. -/
noncomputable def loopSpot (s : Spot) (t rh : ℝ) : ℝ :=
  let q10 := s.g * s.del rh ^ s.l * cut (s.Q t rh).v
  let qm := s.l / s.del rh - s.k * s.alp * s.del rh ^ (s.k - 1)
  q10 * qm * rh * rh / s.rho

/-- `pr`, the pressure the loop computes at a density (`water.c` 243-270). -/
noncomputable def loopP (t rh : ℝ) : ℝ :=
  let y := rh * (bJ t).v / 4
  let pr := (rows.map fun w => w.g / tau t ^ w.l * erm rh ^ (w.k - 1)).sum
    + (spots.map fun s => loopSpot s t rh).sum
  rh * (rh * exp (-rh) * pr + rg * t * ((1 + al * y + be * y * y) / (1 - y) ^ 3
    + 4 * y * ((bbJ t).v / (bJ t).v - ga)))

/-- `dpr`, the slope the loop uses (`water.c` 251-252, 263-266, 271-274). -/
noncomputable def loopD (t rh : ℝ) : ℝ :=
  let y := rh * (bJ t).v / 4
  let d := (rows.map fun w => (2 + rh * (w.k * exp (-rh) - 1) / erm rh) * w.g / tau t ^ w.l
      * erm rh ^ (w.k - 1)).sum
    + (spots.map fun s => loopSpot s t rh * (2 / rh + (s.l / s.del rh
        - s.k * s.alp * s.del rh ^ (s.k - 1)) / s.rho)
      - rh * rh / (s.rho * s.rho) * (s.g * s.del rh ^ s.l * cut (s.Q t rh).v)
        * (s.l / s.del rh / s.del rh + s.k * (s.k - 1) * s.alp * s.del rh ^ (s.k - 2))).sum
  rh * exp (-rh) * d + rg * t * ((1 + 2 * al * y + 3 * be * y * y) / (1 - y) ^ 3
    + 3 * y * (1 + al * y + be * y * y) / (1 - y) ^ 4 + 2 * 4 * y * ((bbJ t).v / (bJ t).v - ga))

open Classical in
/-- The density the loop works at (`water.c` 240-242). -/
noncomputable def clampR (r : ℝ) : ℝ := if r ≤ 0 then 1e-8 else if 1.9 < r then 1.9 else r

open Classical in
/-- The next density (`water.c` 276-282); `ps` is the vapour pressure, from `psat2` below 647.25 K and
220.55 above. -/
noncomputable def nextR (ps t p r : ℝ) : ℝ :=
  let rh := clampR r
  let d := loopD t rh
  if d ≤ 0 then r * (if p ≤ ps then 0.95 else 1.05)
  else
    let d := if d < 0.01 then 0.01 else d
    let x := (p - loopP t rh) / d
    rh + (if 0.1 < |x| then 0.1 * x / |x| else x)

open Classical in
/-- The loop (`water.c` 237-289): at most `n` passes from a density, and whether it stopped by its
tests.  The first guess, from a cubic equation of state (`water.c` 219-233), is left open. -/
noncomputable def search (ps t p : ℝ) : ℕ → ℝ → ℝ × Bool
  | 0, r => (r, false)
  | n + 1, r =>
    let r' := nextR ps t p r
    if |1 - loopP t (clampR r) / p| ≤ 10 * 2 ^ (-52 : ℤ) ∧ |1 - r' / clampR r| ≤ 10 * 2 ^ (-52 : ℤ)
    then (r', true) else search ps t p n r'

end Verif.Thermo.Water
