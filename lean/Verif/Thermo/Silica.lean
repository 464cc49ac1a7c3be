import Verif.Thermo.LambdaP

/-!
# Silica polymorphs, metals and enstatite (C64)

`sources/gibbs.c` 1702-2324 and 3363-3543: the solids that `gibbs` treats by name with formulas of
their own.
-/

open Filter Topology Real

namespace Verif.Thermo.StdState

/-! ## The code -/

/-- A row of the solid table with a Berman heat capacity and equation of state, which is what every
row of the silica polymorphs has (`sol_struct_data.h` 1562-1591, 3078-3107, 4437-4466, 5911-5940). -/
structure BRef where
  h : ℝ
  s : ℝ
  v : ℝ
  cp : Berman
  v1 : ℝ
  v2 : ℝ
  v3 : ℝ
  v4 : ℝ

/-- Heat capacity without transition, then `intEOSsolid` (for quartz `gibbs.c` 1724-1725, 1738-1743 or
1749-1754, 1902-1904). -/
noncomputable def BRef.plain (r : BRef) (t p : ℝ) : Std :=
  cpBerman r.h r.s { r.cp with Tt := 0 } t + eosBerman r.v r.v1 r.v2 r.v3 r.v4 t p

/-- A silica polymorph: `lo` is the row of the table, `hi` the same with the constants the code puts
in above the transition; `adj` is added to the energy and the enthalpy. -/
noncomputable def polymorph (lo hi : BRef) (k tb adj t p : ℝ) : Std :=
  if t > lo.cp.Tt + k * (p - 1) then hi.plain t p + shift adj 0 t
  else lo.plain t p + lamP lo.cp.l1 lo.cp.l2 tb k t p + shift adj 0 t

/-- "quartz" (`gibbs.c` 1702-1918); `adj` is `QUARTZ_ADJUSTMENT`, -1291 except in pMELTS. -/
noncomputable def quartz (adj : ℝ) (r : BRef) (t p : ℝ) : Std :=
  polymorph r { r with h := -908627, s := 44.207, v := 2.370, v1 := -1.238e-6, v2 := 7.087e-13,
                       v3 := 0, v4 := 0 } 0.0237 373 adj t p

/-- "tridymite" (`gibbs.c` 1920-1992). -/
noncomputable def tridymite (r : BRef) (t p : ℝ) : Std :=
  polymorph r { r with h := -907045, s := 45.524, v := 2.737, v1 := -0.740e-6, v2 := 3.735e-12,
                       v3 := 4.829e-6, v4 := 0 } 0 tr 0 t p

/-- "cristobalite" (`gibbs.c` 1994-2194). -/
noncomputable def cristobalite (r : BRef) (t p : ℝ) : Std :=
  polymorph r { r with h := -906377, s := 46.029, v := 2.730, v1 := -1.100e-6, v2 := 5.535e-12,
                       v3 := 3.189e-6, v4 := 0 } 0.0480 tr 0 t p

/-- The three polymorphs of enstatite (`gibbs.c` 2204-2223, 2239-2258, 2274-2293). -/
noncomputable def clinoEn : BRef := ⟨-1545926 * 2, 66.325 * 2, 3.131 * 2, ⟨139.96 * 2, -4.970e2 * 2,
  -44.002e5 * 2, 53.571e7 * 2, 0, 0, 0, 0⟩, -0.750e-6, 0.448e-12, 21.915e-6, 74.920e-10⟩
@[inherit_doc clinoEn]
noncomputable def orthoEn : BRef := ⟨-1545552 * 2, 66.170 * 2, 3.133 * 2, ⟨166.58 * 2, -12.006e2 * 2,
  -22.706e5 * 2, 27.915e7 * 2, 0, 0, 0, 0⟩, -0.749e-6, 0.447e-12, 24.656e-6, 74.670e-10⟩
@[inherit_doc clinoEn]
noncomputable def protoEn : BRef := ⟨-1543959 * 2, 67.438 * 2, 3.242 * 2, ⟨166.58 * 2, -12.006e2 * 2,
  -22.706e5 * 2, 27.915e7 * 2, 0, 0, 0, 0⟩, -0.750e-6, 0.448e-12, 16.832e-6, 116.650e-10⟩

open Classical in
/-- "enstatite" (`gibbs.c` 2196-2324), for a row with the Berman equation of state; no row of the
tables has this name.  The last branch of the code is an error message and `exit`. -/
noncomputable def enstatite (t p : ℝ) : Option Std :=
  let c := clinoEn.plain t p
  let o := orthoEn.plain t p
  let q := protoEn.plain t p
  if c.g ≤ o.g ∧ c.g ≤ q.g then some c
  else if o.g ≤ c.g ∧ o.g ≤ q.g then some o
  else if q.g ≤ o.g ∧ q.g ≤ c.g then some q
  else none

/-- `fe_metal` (`gibbs.c` 3363-3413). -/
noncomputable def feMetal (t p : ℝ) : Std :=
  let k0 := 23.9788
  let k1 := -0.12875
  let k2 := 662.0648
  let k3 := -111298.07
  let ct := 0.00836712
  let cps := k0 + k1 / √t + ct * t + k2 / t ^ 2 + k3 / t ^ 3
  let dcps := -0.5 * k1 / t ^ (3 / 2 : ℝ) + ct - 2 * k2 / t ^ 3 - 3 * k3 / t ^ 4
  let hs := 7788 + k0 * (t - tr) + 0.5 * ct * (t * t - tr * tr) + 2 * k1 * (√t - √tr)
    - k2 * (1 / t - 1 / tr) - 0.5 * k3 * (1 / (t * t) - 1 / (tr * tr))
  let ss := 35.545 + k0 * Real.log (t / tr) - 2 * k1 * (1 / √t - 1 / √tr) + ct * (t - tr)
    - 0.5 * k2 * (1 / (t * t) - 1 / (tr * tr)) - (1 / 3) * k3 * (1 / (t * t * t) - 1 / (tr * tr * tr))
  ⟨hs - t * ss, hs, ss, 0, cps, dcps, 0, 0, 0, 0, 0⟩
    + eosBerman (0.709258 * 0.964596) (-0.594e-6) 0 75.8e-6 0 t p

/-- `fe_liquid` (`gibbs.c` 3416-3457) and `ni_liquid` (3502-3543): a constant heat capacity and the
Berman volume. -/
noncomputable def metalLiquid (h0 s0 cp t1 v0 v1 v2 v3 v4 t p : ℝ) : Std :=
  let hl := h0 + cp * (t - t1)
  let sl := s0 + cp * Real.log (t / t1)
  ⟨hl - t * sl, hl, sl, 0, cp, 0, 0, 0, 0, 0, 0⟩ + eosBerman v0 v1 v2 v3 v4 t p

/-- `fe_liquid` (`gibbs.c` 3416-3457). -/
noncomputable def feLiquid (t p : ℝ) : Std := metalLiquid (12395 + 32028) 80.932 46.024 1200 0.652697
  (-8.87646e-7) 1.306567e-12 1.31136e-4 7.2557e-9 t p

/-- `ni_liquid` (`gibbs.c` 3502-3543). -/
noncomputable def niLiquid (t p : ℝ) : Std := metalLiquid (17479 + 30382) 84.680 38.911 1300 0.6286951
  (-8.87646e-7) 1.306567e-12 1.2486e-4 3.2325e-9 t p

/-- `ni_metal` (`gibbs.c` 3459-3499). -/
noncomputable def niMetal (t p : ℝ) : Std :=
  let tr1 := 298.15
  let tr := 750
  let v0 := 0.659
  let vni1 := -0.536e-6
  let vni3a := 47.900e-6
  let vni3b := 53.900e-6
  let cpa := 5.071e-3 * 4184
  let cpb := 2 * 1.157e-6 * 4184
  let cpc := -3.136e-2 * 4184
  let hs := 3.32124 * 4184 + cpa * (t - tr) + 0.5 * cpb * (t * t - tr * tr) + cpc * (1 / t - 1 / tr)
  let ss := 0.013795 * 4184 + cpa * (Real.log t - Real.log tr) + cpb * (t - tr)
    + 0.5 * cpc * (1 / t / t - 1 / tr / tr)
  { g := hs - t * ss + v0 * (1 + vni3a * (631 - tr1)) * ((vni1 / 2) * (p * p - pr * pr)
      + (1 - vni1 + vni3b * (t - 631)) * (p - pr))
    h := hs + v0 * (1 + vni3a * (631 - tr1)) * (0.5 * vni1 * (p * p - pr * pr)
        + (1 - vni1 + vni3b * (t - 631)) * (p - pr))
      - t * v0 * (1 + vni3a * (631 - tr1)) * vni3b * (p - pr)
    s := ss - v0 * (1 + vni3a * (631 - tr1)) * vni3b * (p - pr)
    v := v0 * (1 + vni3a * (631 - tr1)) * (vni1 * p + (1 - vni1 + vni3b * (t - 631)))
    cp := cpa + cpb * t - cpc / (t * t)
    dcpdt := cpb + 2 * cpc / (t * t * t)
    dvdt := v0 * (1 + vni3a * (631 - tr1)) * vni3b
    dvdp := v0 * (1 + vni3a * (631 - tr1)) * vni1
    d2vdt2 := 0
    d2vdp2 := 0
    d2vdtdp := 0 }

/-! ## The properties -/

lemma plain_consistent (r : BRef) {t : ℝ} (p : ℝ) (ht : 0 < t) : Consistent r.plain t p :=
  (C60_cpBerman r.h r.s { r.cp with Tt := 0 } p ht (Or.inl rfl)).add
    (C60_eosBerman r.v r.v1 r.v2 r.v3 r.v4 p ht)

lemma polymorph_consistent (lo hi : BRef) (k tb adj : ℝ) {t p : ℝ} (ht : 0 < t)
    (hT : t ≠ lo.cp.Tt + k * (p - 1)) (ha : tb + k * (p - 1) ≠ 0) :
    Consistent (polymorph lo hi k tb adj) t p := by
  have hc : Continuous fun p' : ℝ => lo.cp.Tt + k * (p' - 1) := by fun_prop
  rcases lt_or_gt_of_ne hT with h | h
  · refine (((plain_consistent lo p ht).add (lamP_consistent lo.cp.l1 lo.cp.l2 tb k ht ?_)).add
      (shift_consistent adj 0 ht)).congr ?_ ?_
    · rwa [sub_neg_eq_add]
    · filter_upwards [gt_mem_nhds h] with t' h'
      rw [polymorph, if_neg (not_lt.2 h'.le)]
    · filter_upwards [(hc.tendsto p).eventually (lt_mem_nhds h)] with p' h'
      rw [polymorph, if_neg (not_lt.2 h'.le)]
  · refine ((plain_consistent hi p ht).add (shift_consistent adj 0 ht)).congr ?_ ?_
    · filter_upwards [lt_mem_nhds h] with t' h'
      rw [polymorph, if_pos h']
    · filter_upwards [(hc.tendsto p).eventually (gt_mem_nhds h)] with p' h'
      rw [polymorph, if_pos h']

/-- **C64**, silica: quartz, tridymite and cristobalite report consistent properties, whatever the
row of the table, except exactly at the temperature of the transition at the pressure in hand. -/
theorem C64_silica (r : BRef) (adj : ℝ) {t p : ℝ} (ht : 0 < t) (hp : 0 ≤ p) :
    (t ≠ r.cp.Tt + 0.0237 * (p - 1) → Consistent (quartz adj r) t p) ∧
    (t ≠ r.cp.Tt → Consistent (tridymite r) t p) ∧
    (t ≠ r.cp.Tt + 0.0480 * (p - 1) → Consistent (cristobalite r) t p) := by
  refine ⟨fun h => polymorph_consistent _ _ _ _ _ ht h ?_,
    fun h => polymorph_consistent _ _ _ _ _ ht (by simpa using h) ?_,
    fun h => polymorph_consistent _ _ _ _ _ ht h ?_⟩
  · have : (0:ℝ) < 373 + 0.0237 * (p - 1) := by linarith
    exact this.ne'
  · norm_num [tr]
  · have : (0:ℝ) < tr + 0.0480 * (p - 1) := by norm_num [tr]; linarith
    exact this.ne'

/-- Row "tridymite" of the solid table (`sol_struct_data.h` 1572-1581). -/
noncomputable def tridymiteRow : BRef := ⟨-907750, 43.770, 2.675, ⟨75.37, 0, -59.581e5, 95.825e7, 383,
  130, 42.670e-2, -144.575e-5⟩, -2.508e-6, 0, 19.339e-6, 0⟩

/-- Row "quartz" of the solid table (`sol_struct_data.h` 1562-1571). -/
noncomputable def quartzRow : BRef := ⟨-910700, 41.460, 2.269, ⟨80.01, -2.403e2, -35.467e5, 49.157e7,
  848, 0, -9.187e-2, 24.607e-5⟩, -2.434e-6, 10.137e-12, 23.895e-6, 0⟩

/-- Below its transition at 5 kbar (966 K) and above it. -/
example : Consistent (quartz (-1291) quartzRow) 800 5000 ∧
    Consistent (quartz (-1291) quartzRow) 1200 5000 ∧ Consistent (tridymite tridymiteRow) 800 1 := by
  refine ⟨(C64_silica quartzRow _ ?_ ?_).1 ?_, (C64_silica quartzRow _ ?_ ?_).1 ?_,
    (C64_silica tridymiteRow 0 ?_ ?_).2.1 ?_⟩ <;> norm_num [quartzRow, tridymiteRow]

/-- **C64**, *a defect*: with the constants of the table the Gibbs energy of tridymite is not
continuous.  On heating through 383 K at any pressure of one bar or more it jumps up by more than
43 J, so that just above its transition the phase reported is not the more stable one. -/
theorem C64_tridymite_jump {p : ℝ} (hp : 1 ≤ p) : ∃ δ : ℝ, 43 < δ ∧
    Tendsto (fun t => (tridymite tridymiteRow t p).g) (𝓝[>] 383)
      (𝓝 ((tridymite tridymiteRow 383 p).g + δ)) := by
  obtain ⟨hi, hhi⟩ : ∃ hi : BRef, hi = ⟨-907045, 45.524, 2.737, tridymiteRow.cp, -0.740e-6,
      3.735e-12, 4.829e-6, 0⟩ := ⟨_, rfl⟩
  have habove : ∀ t, 383 < t → tridymite tridymiteRow t p = hi.plain t p + shift 0 0 t := by
    intro t ht
    rw [tridymite, polymorph, if_pos (by simpa [tridymiteRow] using ht), hhi]
  have hat : tridymite tridymiteRow 383 p = tridymiteRow.plain 383 p
      + lamP tridymiteRow.cp.l1 tridymiteRow.cp.l2 tr 0 383 p + shift 0 0 383 := by
    rw [tridymite, polymorph, if_neg (by simp [tridymiteRow])]
  refine ⟨(hi.plain 383 p).g - (tridymite tridymiteRow 383 p).g, ?_, ?_⟩
  · rw [hat]
    have e : ∀ r : BRef, (r.plain 383 p).g = (cpBerman 0 0 { r.cp with Tt := 0 } 383).g + r.h - 383 * r.s
        + (eosBerman r.v r.v1 r.v2 r.v3 r.v4 383 p).g := by
      intro r
      simp only [BRef.plain, std_add, cpBerman]
      norm_num
      ring
    have hl : (lamP tridymiteRow.cp.l1 tridymiteRow.cp.l2 tr 0 383 p).g < -10 := by
      simp only [lamP, tridymiteRow, tr]
      norm_num
    have h0 : (shift 0 0 383).g = 0 := by simp [shift]
    obtain ⟨q, rfl⟩ : ∃ q, p = q + 1 := ⟨p - 1, by ring⟩
    have hq : 0 ≤ q := by linarith
    simp only [std_add, e, h0, hhi]
    have hE : (eosBerman tridymiteRow.v tridymiteRow.v1 tridymiteRow.v2 tridymiteRow.v3
        tridymiteRow.v4 383 (q + 1)).g ≤ (eosBerman 2.737 (-0.740e-6) 3.735e-12 4.829e-6 0 383
          (q + 1)).g := by
      rw [← sub_nonneg]
      have : (eosBerman 2.737 (-0.740e-6) 3.735e-12 4.829e-6 0 383 (q + 1)).g
          - (eosBerman tridymiteRow.v tridymiteRow.v1 tridymiteRow.v2 tridymiteRow.v3
        tridymiteRow.v4 383 (q + 1)).g = (2.737 * (1 + 4.829e-6 * (383 - 298.15))
          - 2.675 * (1 + 19.339e-6 * (383 - 298.15))) * q
          + (2.737 * -0.740e-6 / 2 + 2.675 * 2.508e-6 / 2) * q ^ 2
          + 2.737 * 3.735e-12 / 3 * q ^ 3 := by
        simp only [eosBerman, tridymiteRow, tr, pr]
        ring
      rw [this]
      norm_num
      positivity
    simp only [tridymiteRow] at hl hE ⊢
    linarith
  · have hc : Tendsto (fun t => (hi.plain t p + shift 0 0 t).g) (𝓝[>] 383) (𝓝 (hi.plain 383 p).g) := by
      have h1 := ((plain_consistent hi p (by norm_num : (0:ℝ) < 383)).add
        (shift_consistent 0 0 (by norm_num : (0:ℝ) < 383))).entropy.continuousAt.tendsto
      have h2 : (hi.plain 383 p + shift 0 0 383).g = (hi.plain 383 p).g := by
        simp [std_add, shift]
      simp only [h2] at h1
      exact h1.mono_left nhdsWithin_le_nhds
    rw [add_sub_cancel]
    refine hc.congr' ?_
    filter_upwards [self_mem_nhdsWithin] with t ht
    rw [habove t ht]

/-- **C64**, enstatite: the three cases of the code are exhaustive, and the Gibbs energy reported is
the least of those of the three polymorphs. -/
theorem C64_enstatite (t p : ℝ) : ∃ e, enstatite t p = some e ∧
    (e = clinoEn.plain t p ∨ e = orthoEn.plain t p ∨ e = protoEn.plain t p) ∧
    e.g = min (clinoEn.plain t p).g (min (orthoEn.plain t p).g (protoEn.plain t p).g) := by
  unfold enstatite
  dsimp only
  generalize clinoEn.plain t p = c
  generalize orthoEn.plain t p = o
  generalize protoEn.plain t p = q
  split_ifs with h1 h2 h3
  · exact ⟨c, rfl, Or.inl rfl, (min_eq_left (le_min h1.1 h1.2)).symm⟩
  · refine ⟨o, rfl, Or.inr (Or.inl rfl), ?_⟩
    rw [min_eq_left h2.2, min_eq_right h2.1]
  · refine ⟨q, rfl, Or.inr (Or.inr rfl), ?_⟩
    rw [min_eq_right h3.1, min_eq_right h3.2]
  · exfalso
    rcases le_total c.g o.g with a | a <;> rcases le_total c.g q.g with b | b <;>
      rcases le_total o.g q.g with d | d
    · exact h1 ⟨a, b⟩
    · exact h1 ⟨a, b⟩
    · exact h3 ⟨b.trans a, b⟩
    · exact h3 ⟨d, b⟩
    · exact h2 ⟨a, d⟩
    · exact h2 ⟨a, a.trans b⟩
    · exact h2 ⟨a, d⟩
    · exact h3 ⟨d, d.trans a⟩

/-- **C64**, enstatite: where one of the three polymorphs is strictly the most stable, the properties
reported are consistent. -/
theorem C64_enstatite_consistent (d : Std) {t p : ℝ} (ht : 0 < t) {x y z : BRef}
    (hx : (x, y, z) = (clinoEn, orthoEn, protoEn) ∨ (x, y, z) = (orthoEn, clinoEn, protoEn) ∨
      (x, y, z) = (protoEn, clinoEn, orthoEn))
    (h1 : (x.plain t p).g < (y.plain t p).g) (h2 : (x.plain t p).g < (z.plain t p).g) :
    Consistent (fun t p => (enstatite t p).getD d) t p := by
  have key : ∀ t p, (x.plain t p).g < (y.plain t p).g → (x.plain t p).g < (z.plain t p).g →
      (enstatite t p).getD d = x.plain t p := by
    intro t p h1 h2
    rcases hx with h | h | h <;> simp only [Prod.mk.injEq] at h <;> obtain ⟨rfl, rfl, rfl⟩ := h
    · simp [enstatite, h1.le, h2.le]
    · simp [enstatite, h1.le, h2.le, not_le.2 h1]
    · simp [enstatite, h1.le, h2.le, not_le.2 h1, not_le.2 h2]
  refine (plain_consistent x p ht).congr ?_ ?_
  · filter_upwards [(plain_consistent x p ht).entropy.continuousAt.eventually_lt
      (plain_consistent y p ht).entropy.continuousAt h1,
      (plain_consistent x p ht).entropy.continuousAt.eventually_lt
      (plain_consistent z p ht).entropy.continuousAt h2] with t' a b using key _ _ a b
  · filter_upwards [(plain_consistent x p ht).volume.continuousAt.eventually_lt
      (plain_consistent y p ht).volume.continuousAt h1,
      (plain_consistent x p ht).volume.continuousAt.eventually_lt
      (plain_consistent z p ht).volume.continuousAt h2] with t' a b using key _ _ a b

/-- At 298.15 K and one bar clinoenstatite is the most stable. -/
example (d : Std) : Consistent (fun t p => (enstatite t p).getD d) tr 1 := by
  have e : ∀ r : BRef, (r.plain tr 1).g = r.h - tr * r.s := by
    intro r
    simp [BRef.plain, std_add, cpBerman, eosBerman, pr]
  refine C64_enstatite_consistent d tr_pos (Or.inl rfl) ?_ ?_ <;>
    rw [e, e] <;> simp only [clinoEn, orthoEn, protoEn, tr] <;> norm_num

/-- **C64**, metals: solid and liquid iron and nickel report consistent properties. -/
theorem C64_metals {t : ℝ} (p : ℝ) (ht : 0 < t) : Consistent feMetal t p ∧ Consistent feLiquid t p ∧
    Consistent niMetal t p ∧ Consistent niLiquid t p := by
  have ht' : t ≠ 0 := ht.ne'
  have ht2 : t * t ≠ 0 := mul_ne_zero ht' ht'
  have ht3 : t * t * t ≠ 0 := mul_ne_zero ht2 ht'
  refine ⟨?_, (constCp _ _ _ _ _ p ht (by norm_num)).add (C60_eosBerman _ _ _ _ _ p ht), ?_,
    (constCp _ _ _ _ _ p ht (by norm_num)).add (C60_eosBerman _ _ _ _ _ p ht)⟩
  · refine ((C60_cpSaxena 7788 35.545 ⟨23.9788, 0.00836712, 662.0648, 0, -111298.07, -0.12875, 0⟩ p
      ht).add (C60_eosBerman (0.709258 * 0.964596) (-0.594e-6) 0 75.8e-6 0 p ht)).congr ?_ ?_ <;>
    · filter_upwards with x
      simp only [feMetal, cpSaxena, std_add]
      ext <;> simp only [] <;> ring
  · constructor
    · simp only [niMetal]
      ring
    all_goals
      simp only [niMetal]
      apply HasDerivAt.congr_deriv
      · der
      · push_cast
        field_simp
        try ring

end Verif.Thermo.StdState
