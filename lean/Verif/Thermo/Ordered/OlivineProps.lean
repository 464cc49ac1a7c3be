import Verif.Thermo.Ordered.Olivine
import Verif.Thermo.OrderExist
import Verif.Thermo.ConvTables

/-!
Olivine (/repo/sources/olivine.c): above about 451 K (at 1 bar) the ordering state that `order()` looks for is unique, and what
the file reports are the derivatives of the Gibbs energy at equilibrium order. Compositions with Mn, Fe, Co, Ni, Ca and Mg all
present; the shortcuts of `order()` for absent Mn, Co or Ni (olivine.c 1910-1913, 1939-1987) are not modelled.
-/

namespace Verif.Thermo.Ordering.Olivine

open Finset Filter Topology
open Magma.Thermo.Mixing (R R_pos Mix)

noncomputable section

/-- The temperature above which the energy is convex in the ordering state, at a given pressure (451 K at 1 bar). -/
def Hot (t p : ℝ) : Prop := 3750 + 75 / 10000 * |p - 1| < R * t

lemma raw_sum (y : Var 5 4 → ℝ) : raw y 0 + raw y 2 + raw y 4 + raw y 6 + raw y 9 = 1 ∧
    raw y 1 + raw y 3 + raw y 5 + raw y 7 + raw y 10 + raw y 8 = 1 := by
  constructor
  · change (_ : ℝ) / 2 + _ / 2 + _ / 2 + _ / 2 + (1 - _ / 2 - _ / 2 - _ / 2 - _ / 2) = 1; ring
  · change (_ : ℝ) / 2 + _ / 2 + _ / 2 + _ / 2 + (1 - _ / 2 - _ / 2 - _ / 2 - _ / 2 - _) + y (.inl (.inl 4)) = 1; ring

lemma two_le {x z : ℝ} (h0 : 0 < x) (h1 : 0 < z) (h2 : x ≤ 1) (h3 : z ≤ 1) : 2 ≤ 1 / x + 1 / z := by
  have a : 1 ≤ 1 / x := by rw [le_div_iff₀ h0]; linarith
  have b : 1 ≤ 1 / z := by rw [le_div_iff₀ h1]; linarith
  linarith

lemma dom_pos {y : Var 5 4 → ℝ} (h : Dom y) (i : Fin 11) : 0 < raw y i := by
  obtain ⟨a0, a1, a2, a3, a4, a5, a6, a7, a8, a9, a10⟩ := h
  have := dblEps_pos
  fin_cases i
  exacts [this.trans a0, this.trans a1, this.trans a2, this.trans a3, this.trans a4, this.trans a5, this.trans a6,
    this.trans a7, this.trans a8, this.trans a9, this.trans a10]

/-- The quadratic form of the second derivatives in the ordering parameters. -/
lemma quad_pos {L M K κ z0 z1 z2 z3 z4 v0 v1 v2 v3 : ℝ} (hK : |κ| ≤ K) (hM : 1875 + K = M) (hL : M < L) (h0 : 2 ≤ z0) (h1 : 2 ≤ z1)
    (h2 : 2 ≤ z2) (h3 : 2 ≤ z3) (h4 : 2 ≤ z4) (hv : 0 < v0 ^ 2 + v1 ^ 2 + v2 ^ 2 + v3 ^ 2) :
    0 < L / 2 * (z0 * v0 ^ 2 + z1 * v1 ^ 2 + z2 * v2 ^ 2 + z3 * v3 ^ 2 + z4 * (v0 + v1 - v2 - v3) ^ 2)
      - 2250 * v0 * (v0 + v1 - v2 - v3) + 1500 * v0 * v1 + 2 * κ * v1 * (v0 + v1 - v2 - v3) := by
  set w := v0 + v1 - v2 - v3 with hw
  have hK0 : 0 ≤ K := (abs_nonneg κ).trans hK
  have hM0 : 0 < M := by linarith
  have hL0 : 0 < L := by linarith
  have b : ∀ z v : ℝ, 2 ≤ z → L * v ^ 2 ≤ L / 2 * (z * v ^ 2) := fun z v hz => by
    nlinarith [mul_nonneg hL0.le (mul_nonneg (sub_nonneg.mpr hz) (sq_nonneg v))]
  have a0 := b _ v0 h0
  have a1 := b _ v1 h1
  have a2 := b _ v2 h2
  have a3 := b _ v3 h3
  have a4 := b _ w h4
  have c1 : 2 * |κ * (v1 * w)| ≤ K * (v1 ^ 2 + w ^ 2) := by
    rw [abs_mul]
    have e : 2 * |v1 * w| ≤ v1 ^ 2 + w ^ 2 := by
      rw [abs_mul]; nlinarith [sq_nonneg (|v1| - |w|), sq_abs v1, sq_abs w]
    nlinarith [mul_le_mul hK e (by positivity) hK0, abs_nonneg κ]
  have c2 := neg_abs_le (κ * (v1 * w))
  have d : (L - M) * (v0 ^ 2 + v1 ^ 2 + v2 ^ 2 + v3 ^ 2) > 0 := mul_pos (by linarith) hv
  have f : 0 ≤ (L - M) * w ^ 2 := mul_nonneg (by linarith) (sq_nonneg _)
  have f2 : 0 ≤ M * (v2 ^ 2 + v3 ^ 2) := by positivity
  rw [← hM] at d f f2
  nlinarith [sq_nonneg (v0 - w), sq_nonneg (v0 + v1), mul_nonneg hK0 (sq_nonneg v0)]

lemma posHess {y : Var 5 4 → ℝ} (ht : Hot (y (.inl iT)) (y (.inl iP))) (h : Dom y) : PosHess (jets macros) y := by
  intro v hv
  obtain ⟨e0, e1⟩ := raw_sum y
  have hx := dom_pos h
  have q0 := two_le (hx 0) (hx 1) (by linarith [hx 2, hx 4, hx 6, hx 9]) (by linarith [hx 3, hx 5, hx 7, hx 8, hx 10])
  have q1 := two_le (hx 2) (hx 3) (by linarith [hx 0, hx 4, hx 6, hx 9]) (by linarith [hx 1, hx 5, hx 7, hx 8, hx 10])
  have q2 := two_le (hx 4) (hx 5) (by linarith [hx 2, hx 0, hx 6, hx 9]) (by linarith [hx 3, hx 1, hx 7, hx 8, hx 10])
  have q3 := two_le (hx 6) (hx 7) (by linarith [hx 2, hx 4, hx 0, hx 9]) (by linarith [hx 3, hx 5, hx 1, hx 8, hx 10])
  have q4 := two_le (hx 9) (hx 10) (by linarith [hx 2, hx 4, hx 6, hx 0]) (by linarith [hx 3, hx 5, hx 7, hx 8, hx 1])
  have hv0 : 0 < v 0 ^ 2 + v 1 ^ 2 + v 2 ^ 2 + v 3 ^ 2 := by
    by_contra hc
    have s0 := sq_nonneg (v 0)
    have s1 := sq_nonneg (v 1)
    have s2 := sq_nonneg (v 2)
    have s3 := sq_nonneg (v 3)
    refine hv (funext fun k => ?_)
    have t0 : v 0 = 0 := pow_eq_zero_iff (two_ne_zero) |>.mp (by linarith)
    have t1 : v 1 = 0 := pow_eq_zero_iff (two_ne_zero) |>.mp (by linarith)
    have t2 : v 2 = 0 := pow_eq_zero_iff (two_ne_zero) |>.mp (by linarith)
    have t3 : v 3 = 0 := pow_eq_zero_iff (two_ne_zero) |>.mp (by linarith)
    fin_cases k
    exacts [t0, t1, t2, t3]
  have e : ∀ k l, (jets macros).g2 y (.inr k) (.inr l) = (tables (raw y) y).d2gds2 k l := fun k l => by
    change (macros y).d2gds2 k l = _
    unfold macros; rw [site_eq y h]
  simp only [Fin.sum_univ_four, e]
  generalize raw y = x at *
  have ht' : 3750 + 75 / 10000 * |y (.inl iP) - 1| < R * y (.inl iT) := ht
  have key := quad_pos (L := R * y (.inl iT) / 2) (κ := 375 / 100000 * (y (.inl iP) - 1)) (v0 := v 0) (v1 := v 1) (v2 := v 2)
    (v3 := v 3) (le_of_eq (by rw [abs_mul, abs_of_pos (by norm_num)])) rfl (by linarith) q0 q1 q2 q3 q4 hv0
  refine lt_of_lt_of_eq key ?_
  simp only [tables, Matrix.cons_val, D2GDS0S0, D2GDS0S1, D2GDS0S2, D2GDS0S3, D2GDS1S1, D2GDS1S2, D2GDS1S3, D2GDS2S2, D2GDS2S3,
    D2GDS3S3]
  generalize 1 / x 0 = a0, 1 / x 1 = a1, 1 / x 2 = a2, 1 / x 3 = a3, 1 / x 4 = a4, 1 / x 5 = a5, 1 / x 6 = a6, 1 / x 7 = a7,
    1 / x 9 = a9, 1 / x 10 = a10
  simp only [GS1S1, GS1S2, GS1S3, GS1S4, GS2S2, GS2S3, GS2S4, GS3S3, GS3S4, GS4S4, GXMGMN, HXMGMN, VXMGMN, W1MGMN, W2MGMN, WH1MGMN, WH2MGMN, WV1MGMN, WV2MGMN, GXMGFE, HXMGFE, VXMGFE, W1MGFE, W2MGFE, WH1MGFE, WH2MGFE, WV1MGFE, WV2MGFE, GXMGCO, HXMGCO, VXMGCO, W1MGCO, W2MGCO, WH1MGCO, WH2MGCO, WV1MGCO, WV2MGCO, GXMGNI, HXMGNI, VXMGNI, W1MGNI, W2MGNI, WH1MGNI, WH2MGNI, WV1MGNI, WV2MGNI, GXMNFE, HXMNFE, VXMNFE, W1MNFE, W2MNFE, WH1MNFE, WH2MNFE, WV1MNFE, WV2MNFE, GXMNCO, HXMNCO, VXMNCO, W1MNCO, W2MNCO, WH1MNCO, WH2MNCO, WV1MNCO, WV2MNCO, GXMNNI, HXMNNI, VXMNNI, W1MNNI, W2MNNI, WH1MNNI, WH2MNNI, WV1MNNI, WV2MNNI, GXFECO, HXFECO, VXFECO, W1FECO, W2FECO, WH1FECO, WH2FECO, WV1FECO, WV2FECO, GXFENI, HXFENI, VXFENI, W1FENI, W2FENI, WH1FENI, WH2FENI, WV1FENI, WV2FENI, GXCONI, HXCONI, VXCONI, W1CONI, W2CONI, WH1CONI, WH2CONI, WV1CONI, WV2CONI]
  ring

/-- The ordering states without active bounds form a convex set. -/
lemma dom_convex (θ : Ext 5 → ℝ) : Convex ℝ {s : Fin 4 → ℝ | Dom (join (θ, s))} := by
  intro s hs s' hs' a b ha hb hab
  have e : ∀ i, raw (join (θ, a • s + b • s')) i = a * raw (join (θ, s)) i + b * raw (join (θ, s')) i := by
    intro i
    have hb' : b = 1 - a := by linarith
    fin_cases i <;> simp [raw, join, hb'] <;> ring
  have hlow : ∀ {l x x' : ℝ}, l < x → l < x' → l < a * x + b * x' := by
    intro l x x' h h'
    have hb' : b = 1 - a := by linarith
    rcases ha.lt_or_eq with ha' | ha'
    · have := mul_pos ha' (sub_pos.mpr h)
      have := mul_nonneg hb (sub_pos.mpr h').le
      rw [hb'] at *
      linarith
    · have : b = 1 := by linarith
      rw [← ha', this]
      linarith
  obtain ⟨a0, a1, a2, a3, a4, a5, a6, a7, a8, a9, a10⟩ := hs
  obtain ⟨b0, b1, b2, b3, b4, b5, b6, b7, b8, b9, b10⟩ := hs'
  simp only [Set.mem_ofPred_eq, Dom, e]
  exact ⟨hlow a0 b0, hlow a1 b1, hlow a2 b2, hlow a3 b3, hlow a4 b4, hlow a5 b5, hlow a6 b6, hlow a7 b7, hlow a8 b8, hlow a9 b9,
    hlow a10 b10⟩

/-- **C61.** Olivine: above 451 K (at 1 bar; 0.9 K more per kilobar) no two ordering states with all bounds inactive
satisfy the equation `order()` solves, so a converged iteration has found the only one. -/
theorem C61_olivine_unique {t p : ℝ} (r : Fin 5 → ℝ) (h : Hot t p) {s s' : Fin 4 → ℝ}
    (hs : Dom (join (env r t p, s)) ∧ ∀ k, (macros (join (env r t p, s))).dgds k = 0)
    (hs' : Dom (join (env r t p, s')) ∧ ∀ k, (macros (join (env r t p, s'))).dgds k = 0) : s = s' :=
  stationary_unique ok (dom_convex _) (fun s hd => posHess (y := join (env r t p, s)) h hd) hs.1 hs'.1 hs.2 hs'.2

/-- `X` gives, at the conditions `U`, an ordering state at which no bound on the site fractions is active and the
equilibrium equation holds: what the iteration of `order()` looks for (olivine.c 1850-2063). -/
structure Equilibrium (X : (Ext 5 → ℝ) → Fin 4 → ℝ) (U : Set (Ext 5 → ℝ)) : Prop where
  isOpen : IsOpen U
  hot : ∀ θ ∈ U, Hot (θ iT) (θ iP)
  stat : ∀ θ ∈ U, Dom (pt X θ) ∧ ∀ k, (macros (pt X θ)).dgds k = 0

/-- Such a state is unique, hence smooth in the conditions. -/
theorem solved {X : (Ext 5 → ℝ) → Fin 4 → ℝ} {U : Set (Ext 5 → ℝ)} (h : Equilibrium X U) :
    Solved (jets macros) Dom X U :=
  solved_of_posHess ok dom_open h.isOpen h.stat (fun θ _ => dom_convex θ) fun θ hθ _ hd => posHess (h.hot θ hθ) hd

/-- `gmixOlv, hmixOlv, smixOlv, cpmixOlv, vmixOlv`, olivine.c 2898-3300. -/
def mix (X : (Ext 5 → ℝ) → Fin 4 → ℝ) : Mix 5 := ordMix (jets macros) (fun y => (macros y).s) X

/-- **C24.** Olivine: every mixing property the file reports is the derivative it claims to be of the Gibbs energy at
equilibrium order. -/
theorem C24_olivine {X : (Ext 5 → ℝ) → Fin 4 → ℝ} {U : Set (Ext 5 → ℝ)} (h : Equilibrium X U) :
    ConsistentOn (mix X) (On U) :=
  C24_ordering (E := fun y => (macros y).s) ok (fun y _ => entropy_eq y) (solved h)

/-- `FR0(i)`-`FR4(i)`, olivine.c 922-926. -/
def fr (r : Fin 5 → ℝ) (i : Fin 6) (j : Fin 5) : ℝ :=
  if i = j.castSucc then 1 - r j else if j = 4 then -r j else -(1 + r j)

/-- `DFR0DR0(i)`-`DFR4DR4(i)`, olivine.c 934-938. -/
def dfr (_i : Fin 6) (_k : Fin 5) : ℝ := -1

/-- `GGS0(i)`-`GGS3(i)`, olivine.c 929-932. -/
def gs (s : Fin 4 → ℝ) (_i : Fin 6) (j : Fin 4) : ℝ := -s j

/-- `actOlv`, first mask (`a[i]`) without the exclusion criteria, olivine.c 2769-2804. -/
def act (X : (Ext 5 → ℝ) → Fin 4 → ℝ) (t p : ℝ) (r : Fin 5 → ℝ) (i : Fin 6) : ℝ := actO (mix X) fr t p r i

/-- `actOlv`, second mask (`mu[i]`) without the exclusion criteria, olivine.c 2806-2812. -/
def mu (X : (Ext 5 → ℝ) → Fin 4 → ℝ) (t p : ℝ) (r : Fin 5 → ℝ) (i : Fin 6) : ℝ := muO (mix X) fr t p r i

/-- **C24.** Olivine: activities are `exp(μ/RT)`. -/
theorem C24_olivine_activity (X : (Ext 5 → ℝ) → Fin 4 → ℝ) (t p : ℝ) (ht : t ≠ 0) (r : Fin 5 → ℝ) (i : Fin 6) :
    R * t * Real.log (act X t p r i) = mu X t p r i := C24_ordering_activity _ _ t p ht r i

/-- **C24.** Olivine: the reported composition derivatives of the activities are their derivatives. -/
theorem C24_olivine_activity_derivative {X : (Ext 5 → ℝ) → Fin 4 → ℝ} {U : Set (Ext 5 → ℝ)} (hX : Equilibrium X U)
    {t p : ℝ} {r : Fin 5 → ℝ} (h : On U t p r) (i : Fin 6) (k : Fin 5) :
    Magma.Thermo.Extensive.Partial (fun r => act X t p r i) r k
      (dactO (jets macros) X fr dfr gs t p r i k) := by
  refine C24_ordering_activity_derivative (e := fun i j => if i = j.castSucc then 1 else if j = 4 then 0 else -1) ok (fun y _ => entropy_eq y)
    (solved hX) ?_ (fun _ _ => rfl) h i k
  intro r i j
  unfold fr
  by_cases h : i = j.castSucc
  · simp [h]
  · by_cases h4 : j = 4
    · simp only [if_neg h, if_pos h4]; ring
    · simp only [h, h4, if_false]; ring

open Magma.Thermo.Compo in
lemma fr_eq (m : Fin 6 → ℝ) (h0 : ∑ i, m i ≠ 0) (i : Fin 6) (j : Fin 5) :
    (∑ i, m i) * Magma.Thermo.Compo.Olivine.conv.dm m j i = fr (Magma.Thermo.Compo.Olivine.conv.toR m) i j := by
  have ht : total m = ∑ i, m i := rfl
  have e1 : Magma.Thermo.Compo.Olivine.conv.dm m j i = Magma.Thermo.Compo.Olivine.dm m i j := rfl
  have e2 : Magma.Thermo.Compo.Olivine.conv.toR m = Magma.Thermo.Compo.Olivine.toR m := rfl
  rw [e1, e2]
  unfold Magma.Thermo.Compo.Olivine.dm Magma.Thermo.Compo.Olivine.toR fr
  rw [← ht] at h0 ⊢
  rw [if_neg h0, if_pos h0, if_pos h0, if_pos h0, if_pos h0, if_pos h0]
  generalize total m = N at h0
  fin_cases j <;> fin_cases i <;> simp <;> field_simp <;> ring

/-- **C24.** Olivine: the reported chemical potentials are the derivatives of the total Gibbs energy of mixing in the
moles of the end members. -/
theorem C24_olivine_potential {X : (Ext 5 → ℝ) → Fin 4 → ℝ} {U : Set (Ext 5 → ℝ)} (hX : Equilibrium X U) (t p : ℝ)
    (m : Fin 6 → ℝ) (h0 : ∑ i, m i ≠ 0) (h : On U t p (Magma.Thermo.Compo.Olivine.conv.toR m)) (i : Fin 6) :
    Magma.Thermo.Extensive.Partial
      (fun m => (∑ i, m i) * (mix X).g t p (Magma.Thermo.Compo.Olivine.conv.toR m)) m i
      (mu X t p (Magma.Thermo.Compo.Olivine.conv.toR m) i) :=
  C24_ordering_potential (C24_olivine hX) _ Magma.Thermo.Compo.C25_olivine t p m h0 (fr_eq m h0) h i

/-- Composition of the example. -/
def exR : Fin 5 → ℝ := ![-(739621819 / 1290284157), -(36637642507 / 135479836485), -(80962711747 / 135479836485), -(1133830153 / 1290284157), 2183132864 / 9031989099]

/-- Ordering state of the example. -/
def exS : Fin 4 → ℝ := ![550662338 / 9031989099, -(98842193978 / 677399182425), 54517124738 / 677399182425, 78227002 / 1290284157]

lemma ex_raw (t : ℝ) : raw (join (env exR t 1, exS)) = ![550662338 / 3010663033, 2202649352 / 9031989099, 98842193978 / 225799727475, 197684387956 / 677399182425, 54517124738 / 225799727475, 109034249476 / 677399182425, 39113501 / 430094719, 39113501 / 1290284157, 2183132864 / 9031989099, 179765176 / 3827114025, 359530352 / 11481342075] := by
  funext i
  fin_cases i <;> simp [raw, join, env, exR, exS, Matrix.cons_val] <;> norm_num

lemma ex_dom (t : ℝ) : Dom (join (env exR t 1, exS)) := by
  have he : dblEps < 1 / 100 := by
    unfold dblEps; rw [zpow_neg]; norm_num
  unfold Dom
  rw [ex_raw]
  simp only [Matrix.cons_val]
  refine ⟨?_, ?_, ?_, ?_, ?_, ?_, ?_, ?_, ?_, ?_, ?_⟩ <;> linarith

/-- A stationary ordering state, at 1388 K and 1 bar. -/
lemma ordered_point {t : ℝ} (ht : R * t * Real.log 2 = 8000) (k : Fin 4) :
    (macros (join (env exR t 1, exS))).dgds k = 0 := by
  have l0 : Real.log (2202649352 / 9031989099 * (179765176 / 3827114025) / (550662338 / 3010663033) / (359530352 / 11481342075)) = Real.log 2 := by congr 1; norm_num
  have l1 : Real.log (197684387956 / 677399182425 * (179765176 / 3827114025) / (98842193978 / 225799727475) / (359530352 / 11481342075)) = 0 := by rw [← Real.log_one]; congr 1; norm_num
  have l2 : Real.log (54517124738 / 225799727475 * (359530352 / 11481342075) / (109034249476 / 677399182425) / (179765176 / 3827114025)) = 0 := by rw [← Real.log_one]; congr 1; norm_num
  have l3 : Real.log (39113501 / 430094719 * (359530352 / 11481342075) / (39113501 / 1290284157) / (179765176 / 3827114025)) = Real.log 2 := by congr 1; norm_num
  unfold macros
  rw [site_eq _ (ex_dom t), ex_raw]
  fin_cases k <;>
  simp only [tables, Fin.zero_eta, Fin.mk_one, Fin.reduceFinMk, Matrix.cons_val, DGDS0, DGDS1, DGDS2, DGDS3]
  · rw [l0]
    have h : ∀ a : ℝ, a + 1 / 2 * R * t * Real.log 2 = a + 4000 := fun a => by linarith
    rw [show join (env exR t 1, exS) (Sum.inl iT) = t from rfl, h]
    simp only [join, env, iT, iP, exR, exS, Sum.elim_inl, Sum.elim_inr, Matrix.cons_val, F_CO, F_FE, F_MN, F_NI, GEXCONI, GEXFECO, GEXFENI, GEXMGCO, GEXMGFE, GEXMGMN, GEXMGNI, GEXMNCO, GEXMNFE, GEXMNNI, GR1S1, GR1S2, GR1S3, GR1S4, GR2S1, GR2S2, GR2S3, GR2S4, GR3S1, GR3S2, GR3S3, GR3S4, GR4S1, GR4S2, GR4S3, GR4S4, GR5S1, GR5S2, GR5S3, GR5S4, GS1, GS1S1, GS1S2, GS1S3, GS1S4, GS2, GS2S2, GS2S3, GS2S4, GS3, GS3S3, GS3S4, GS4, GS4S4, GXCONI, GXFECO, GXFENI, GXMGCO, GXMGFE, GXMGMN, GXMGNI, GXMNCO, GXMNFE, GXMNNI, HEXCONI, HEXFECO, HEXFENI, HEXMGCO, HEXMGFE, HEXMGMN, HEXMGNI, HEXMNCO, HEXMNFE, HEXMNNI, HXCONI, HXFECO, HXFENI, HXMGCO, HXMGFE, HXMGMN, HXMGNI, HXMNCO, HXMNFE, HXMNNI, VEXCONI, VEXFECO, VEXFENI, VEXMGCO, VEXMGFE, VEXMGMN, VEXMGNI, VEXMNCO, VEXMNFE, VEXMNNI, VXCONI, VXFECO, VXFENI, VXMGCO, VXMGFE, VXMGMN, VXMGNI, VXMNCO, VXMNFE, VXMNNI, W1CONI, W1FECO, W1FENI, W1MGCO, W1MGFE, W1MGMN, W1MGNI, W1MNCO, W1MNFE, W1MNNI, W2CACO, W2CAFE, W2CAMG, W2CAMN, W2CANI, W2CONI, W2FECO, W2FENI, W2MGCO, W2MGFE, W2MGMN, W2MGNI, W2MNCO, W2MNFE, W2MNNI, WH1CONI, WH1FECO, WH1FENI, WH1MGCO, WH1MGFE, WH1MGMN, WH1MGNI, WH1MNCO, WH1MNFE, WH1MNNI, WH2CACO, WH2CAFE, WH2CAMG, WH2CAMN, WH2CANI, WH2CONI, WH2FECO, WH2FENI, WH2MGCO, WH2MGFE, WH2MGMN, WH2MGNI, WH2MNCO, WH2MNFE, WH2MNNI, WV1CONI, WV1FECO, WV1FENI, WV1MGCO, WV1MGFE, WV1MGMN, WV1MGNI, WV1MNCO, WV1MNFE, WV1MNNI, WV2CACO, WV2CAFE, WV2CAMG, WV2CAMN, WV2CANI, WV2CONI, WV2FECO, WV2FENI, WV2MGCO, WV2MGFE, WV2MGMN, WV2MGNI, WV2MNCO, WV2MNFE, WV2MNNI]
    norm_num
  · rw [l1]
    simp only [join, env, iT, iP, exR, exS, Sum.elim_inl, Sum.elim_inr, Matrix.cons_val, F_CO, F_FE, F_MN, F_NI, GEXCONI, GEXFECO, GEXFENI, GEXMGCO, GEXMGFE, GEXMGMN, GEXMGNI, GEXMNCO, GEXMNFE, GEXMNNI, GR1S1, GR1S2, GR1S3, GR1S4, GR2S1, GR2S2, GR2S3, GR2S4, GR3S1, GR3S2, GR3S3, GR3S4, GR4S1, GR4S2, GR4S3, GR4S4, GR5S1, GR5S2, GR5S3, GR5S4, GS1, GS1S1, GS1S2, GS1S3, GS1S4, GS2, GS2S2, GS2S3, GS2S4, GS3, GS3S3, GS3S4, GS4, GS4S4, GXCONI, GXFECO, GXFENI, GXMGCO, GXMGFE, GXMGMN, GXMGNI, GXMNCO, GXMNFE, GXMNNI, HEXCONI, HEXFECO, HEXFENI, HEXMGCO, HEXMGFE, HEXMGMN, HEXMGNI, HEXMNCO, HEXMNFE, HEXMNNI, HXCONI, HXFECO, HXFENI, HXMGCO, HXMGFE, HXMGMN, HXMGNI, HXMNCO, HXMNFE, HXMNNI, VEXCONI, VEXFECO, VEXFENI, VEXMGCO, VEXMGFE, VEXMGMN, VEXMGNI, VEXMNCO, VEXMNFE, VEXMNNI, VXCONI, VXFECO, VXFENI, VXMGCO, VXMGFE, VXMGMN, VXMGNI, VXMNCO, VXMNFE, VXMNNI, W1CONI, W1FECO, W1FENI, W1MGCO, W1MGFE, W1MGMN, W1MGNI, W1MNCO, W1MNFE, W1MNNI, W2CACO, W2CAFE, W2CAMG, W2CAMN, W2CANI, W2CONI, W2FECO, W2FENI, W2MGCO, W2MGFE, W2MGMN, W2MGNI, W2MNCO, W2MNFE, W2MNNI, WH1CONI, WH1FECO, WH1FENI, WH1MGCO, WH1MGFE, WH1MGMN, WH1MGNI, WH1MNCO, WH1MNFE, WH1MNNI, WH2CACO, WH2CAFE, WH2CAMG, WH2CAMN, WH2CANI, WH2CONI, WH2FECO, WH2FENI, WH2MGCO, WH2MGFE, WH2MGMN, WH2MGNI, WH2MNCO, WH2MNFE, WH2MNNI, WV1CONI, WV1FECO, WV1FENI, WV1MGCO, WV1MGFE, WV1MGMN, WV1MGNI, WV1MNCO, WV1MNFE, WV1MNNI, WV2CACO, WV2CAFE, WV2CAMG, WV2CAMN, WV2CANI, WV2CONI, WV2FECO, WV2FENI, WV2MGCO, WV2MGFE, WV2MGMN, WV2MGNI, WV2MNCO, WV2MNFE, WV2MNNI]
    norm_num
  · rw [l2]
    simp only [join, env, iT, iP, exR, exS, Sum.elim_inl, Sum.elim_inr, Matrix.cons_val, F_CO, F_FE, F_MN, F_NI, GEXCONI, GEXFECO, GEXFENI, GEXMGCO, GEXMGFE, GEXMGMN, GEXMGNI, GEXMNCO, GEXMNFE, GEXMNNI, GR1S1, GR1S2, GR1S3, GR1S4, GR2S1, GR2S2, GR2S3, GR2S4, GR3S1, GR3S2, GR3S3, GR3S4, GR4S1, GR4S2, GR4S3, GR4S4, GR5S1, GR5S2, GR5S3, GR5S4, GS1, GS1S1, GS1S2, GS1S3, GS1S4, GS2, GS2S2, GS2S3, GS2S4, GS3, GS3S3, GS3S4, GS4, GS4S4, GXCONI, GXFECO, GXFENI, GXMGCO, GXMGFE, GXMGMN, GXMGNI, GXMNCO, GXMNFE, GXMNNI, HEXCONI, HEXFECO, HEXFENI, HEXMGCO, HEXMGFE, HEXMGMN, HEXMGNI, HEXMNCO, HEXMNFE, HEXMNNI, HXCONI, HXFECO, HXFENI, HXMGCO, HXMGFE, HXMGMN, HXMGNI, HXMNCO, HXMNFE, HXMNNI, VEXCONI, VEXFECO, VEXFENI, VEXMGCO, VEXMGFE, VEXMGMN, VEXMGNI, VEXMNCO, VEXMNFE, VEXMNNI, VXCONI, VXFECO, VXFENI, VXMGCO, VXMGFE, VXMGMN, VXMGNI, VXMNCO, VXMNFE, VXMNNI, W1CONI, W1FECO, W1FENI, W1MGCO, W1MGFE, W1MGMN, W1MGNI, W1MNCO, W1MNFE, W1MNNI, W2CACO, W2CAFE, W2CAMG, W2CAMN, W2CANI, W2CONI, W2FECO, W2FENI, W2MGCO, W2MGFE, W2MGMN, W2MGNI, W2MNCO, W2MNFE, W2MNNI, WH1CONI, WH1FECO, WH1FENI, WH1MGCO, WH1MGFE, WH1MGMN, WH1MGNI, WH1MNCO, WH1MNFE, WH1MNNI, WH2CACO, WH2CAFE, WH2CAMG, WH2CAMN, WH2CANI, WH2CONI, WH2FECO, WH2FENI, WH2MGCO, WH2MGFE, WH2MGMN, WH2MGNI, WH2MNCO, WH2MNFE, WH2MNNI, WV1CONI, WV1FECO, WV1FENI, WV1MGCO, WV1MGFE, WV1MGMN, WV1MGNI, WV1MNCO, WV1MNFE, WV1MNNI, WV2CACO, WV2CAFE, WV2CAMG, WV2CAMN, WV2CANI, WV2CONI, WV2FECO, WV2FENI, WV2MGCO, WV2MGFE, WV2MGMN, WV2MGNI, WV2MNCO, WV2MNFE, WV2MNNI]
    norm_num
  · rw [l3]
    have h : ∀ a : ℝ, a + 1 / 2 * R * t * Real.log 2 = a + 4000 := fun a => by linarith
    rw [show join (env exR t 1, exS) (Sum.inl iT) = t from rfl, h]
    simp only [join, env, iT, iP, exR, exS, Sum.elim_inl, Sum.elim_inr, Matrix.cons_val, F_CO, F_FE, F_MN, F_NI, GEXCONI, GEXFECO, GEXFENI, GEXMGCO, GEXMGFE, GEXMGMN, GEXMGNI, GEXMNCO, GEXMNFE, GEXMNNI, GR1S1, GR1S2, GR1S3, GR1S4, GR2S1, GR2S2, GR2S3, GR2S4, GR3S1, GR3S2, GR3S3, GR3S4, GR4S1, GR4S2, GR4S3, GR4S4, GR5S1, GR5S2, GR5S3, GR5S4, GS1, GS1S1, GS1S2, GS1S3, GS1S4, GS2, GS2S2, GS2S3, GS2S4, GS3, GS3S3, GS3S4, GS4, GS4S4, GXCONI, GXFECO, GXFENI, GXMGCO, GXMGFE, GXMGMN, GXMGNI, GXMNCO, GXMNFE, GXMNNI, HEXCONI, HEXFECO, HEXFENI, HEXMGCO, HEXMGFE, HEXMGMN, HEXMGNI, HEXMNCO, HEXMNFE, HEXMNNI, HXCONI, HXFECO, HXFENI, HXMGCO, HXMGFE, HXMGMN, HXMGNI, HXMNCO, HXMNFE, HXMNNI, VEXCONI, VEXFECO, VEXFENI, VEXMGCO, VEXMGFE, VEXMGMN, VEXMGNI, VEXMNCO, VEXMNFE, VEXMNNI, VXCONI, VXFECO, VXFENI, VXMGCO, VXMGFE, VXMGMN, VXMGNI, VXMNCO, VXMNFE, VXMNNI, W1CONI, W1FECO, W1FENI, W1MGCO, W1MGFE, W1MGMN, W1MGNI, W1MNCO, W1MNFE, W1MNNI, W2CACO, W2CAFE, W2CAMG, W2CAMN, W2CANI, W2CONI, W2FECO, W2FENI, W2MGCO, W2MGFE, W2MGMN, W2MGNI, W2MNCO, W2MNFE, W2MNNI, WH1CONI, WH1FECO, WH1FENI, WH1MGCO, WH1MGFE, WH1MGMN, WH1MGNI, WH1MNCO, WH1MNFE, WH1MNNI, WH2CACO, WH2CAFE, WH2CAMG, WH2CAMN, WH2CANI, WH2CONI, WH2FECO, WH2FENI, WH2MGCO, WH2MGFE, WH2MGMN, WH2MGNI, WH2MNCO, WH2MNFE, WH2MNNI, WV1CONI, WV1FECO, WV1FENI, WV1MGCO, WV1MGFE, WV1MGMN, WV1MGNI, WV1MNCO, WV1MNFE, WV1MNNI, WV2CACO, WV2CAFE, WV2CAMG, WV2CAMN, WV2CANI, WV2CONI, WV2FECO, WV2FENI, WV2MGCO, WV2MGFE, WV2MGMN, WV2MGNI, WV2MNCO, WV2MNFE, WV2MNNI]
    norm_num

lemma hot_open : IsOpen {θ : Ext 5 → ℝ | Hot (θ iT) (θ iP)} := by
  have c1 : Continuous fun θ : Ext 5 → ℝ => θ iT := continuous_apply _
  have c2 : Continuous fun θ : Ext 5 → ℝ => θ iP := continuous_apply _
  exact isOpen_lt (continuous_const.add (continuous_const.mul (c2.sub continuous_const).abs)) (continuous_const.mul c1)

/-- Moles of the example (Ca sits on M2 only, so the moles of the Mg end member may be negative). -/
def exM : Fin 6 → ℝ := ![28909772745, 49421096989, 27258562369, 8213835210, 32746992960, -11070423788]

/-- The hypotheses are met around that state. -/
example : ∃ X U t, Equilibrium X U ∧ ∑ i, exM i ≠ 0 ∧ On U t 1 (Magma.Thermo.Compo.Olivine.conv.toR exM) := by
  have hl : 0 < Real.log 2 := Real.log_pos (by norm_num)
  have hl' : Real.log 2 < 2 - 1 := Real.log_lt_sub_one_of_pos (by norm_num) (by norm_num)
  have ht : R * (8000 / (R * Real.log 2)) * Real.log 2 = 8000 := by
    have := R_pos.ne'
    field_simp
  generalize 8000 / (R * Real.log 2) = t at ht
  have hh : Hot t 1 := by
    have : 8000 < R * t := by
      by_contra hc
      nlinarith
    unfold Hot; norm_num; linarith
  obtain ⟨X, U, hu, -, hs⟩ := solved_near (J := jets macros) ok dom_open (ex_dom t) (ordered_point ht)
    (posHess (y := join (env exR t 1, exS)) hh (ex_dom t)).regular
  have hsum : ∑ i, exM i = 135479836485 := by simp only [exM, Fin.sum_univ_six, Matrix.cons_val]; norm_num
  refine ⟨X, U ∩ {θ | Hot (θ iT) (θ iP)}, t, ⟨hs.isOpen.inter hot_open, fun θ h => h.2, fun θ h => ⟨hs.dom θ h.1, hs.stat θ h.1⟩⟩,
    by rw [hsum]; norm_num, ?_⟩
  have ht : Magma.Thermo.Compo.total exM = 135479836485 := hsum
  have e : Magma.Thermo.Compo.Olivine.conv.toR exM = exR := by
    funext i
    change Magma.Thermo.Compo.Olivine.toR exM i = _
    unfold Magma.Thermo.Compo.Olivine.toR
    rw [ht]
    fin_cases i <;> simp [exM, exR, Matrix.cons_val] <;> norm_num
  unfold On
  rw [e]
  exact ⟨hu, hh⟩

end

end Verif.Thermo.Ordering.Olivine
