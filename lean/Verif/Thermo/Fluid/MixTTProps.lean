import Verif.Thermo.Fluid.MixTT
import Verif.Thermo.Fluid.MixTStates

/-!
# C83: the second derivatives of the mixing properties of the H2O-CO2 fluid
-/

open Filter Topology

namespace Verif.Thermo.Fluid

open Verif.Thermo.Water

section

variable {t v x y : ℝ} {low : Bool}

lemma xp_d (g : ℝ) (hv : v ≠ 0) : HasDerivAt (xp g) (2 * g / v ^ 3 * xp g v) v := by
  have h := ((d_inv 2 hv).const_mul (-g)).exp
  refine (h.congr_deriv ?_).congr_of_eventuallyEq (Eventually.of_forall fun w => ?_)
  · simp only [xp]; push_cast
    rw [show -g * (1 / v ^ 2) = -g / v ^ 2 by ring]; ring
  · simp only [xp]; congr 1; ring

/-- As `lin`, with a sixth coefficient. -/
lemma lin6 {b c d e f k q1 q2 q3 q4 q5 q6 : ℝ → ℝ} {b' c' d' e' f' k' r1 r2 r3 r4 r5 r6 : ℝ}
    (hb : HasDerivAt b b' t) (hc : HasDerivAt c c' t) (hd : HasDerivAt d d' t) (he : HasDerivAt e e' t)
    (hf : HasDerivAt f f' t) (hk : HasDerivAt k k' t) (h1 : HasDerivAt q1 r1 v) (h2 : HasDerivAt q2 r2 v)
    (h3 : HasDerivAt q3 r3 v) (h4 : HasDerivAt q4 r4 v) (h5 : HasDerivAt q5 r5 v) (h6 : HasDerivAt q6 r6 v) :
    D (fun z : ℝ × ℝ => b z.1 * q1 z.2 + c z.1 * q2 z.2 + d z.1 * q3 z.2 + e z.1 * q4 z.2 + f z.1 * q5 z.2
        + k z.1 * q6 z.2)
      (b' * q1 v + c' * q2 v + d' * q3 v + e' * q4 v + f' * q5 v + k' * q6 v)
      (b t * r1 + c t * r2 + d t * r3 + e t * r4 + f t * r5 + k t * r6) (t, v) := by
  have F : D (fun z : ℝ × ℝ => z.1) 1 0 (t, v) := D.fst
  have S : D (fun z : ℝ × ℝ => z.2) 0 1 (t, v) := D.snd
  exact ((lin hb hc hd he hf h1 h2 h3 h4 h5).add ((D.comp hk F).mul (D.comp h6 S))).to (by ring) (by ring)

lemma mix_zt_D (h : Rates2 low t) (hv : v ≠ 0) :
    D (fun w : ℝ × ℝ => ((mixQ low w.1).at x y).zt ((mixQt low w.1).at x y) w.2)
      (((mixQ low t).at x y).ztt ((mixQtt low t).at x y) v)
      (((mixQ low t).at x y).zvt ((mixQt low t).at x y) v) (t, v) := by
  obtain ⟨A, hA⟩ : ∃ A, ∀ w, form 1 (mixQ low w).be x y = A := ⟨form 1 (mixQ low t).be x y, fun _ => rfl⟩
  obtain ⟨G, hG⟩ : ∃ G, ∀ w, form 3 (mixQ low w).g x y = G := ⟨form 3 (mixQ low t).g x y, fun _ => rfl⟩
  have h5 := (((d_inv 2 hv).const_mul A).add ((d_inv 4 hv).const_mul G)).mul (xp_d G hv)
  have h0 := lin (form_t (x := x) (y := y) 2 h.b) (form_t (x := x) (y := y) 3 h.c)
    (form_t (x := x) (y := y) 5 h.d) (form_t (x := x) (y := y) 6 h.e) (form_t (x := x) (y := y) 2 h.f)
    (d_inv 1 hv) (d_inv 2 hv) (d_inv 4 hv) (d_inv 5 hv) h5
  refine (h0.to ?_ ?_).congr (Eventually.of_forall fun w => ?_)
  · simp only [Loc.ztt, Q.at, hA, hG, Pi.add_apply, Pi.mul_apply]; ring
  · simp only [Loc.zvt, Q.at, hA, hG, Pi.add_apply]; push_cast; ring
  · simp only [Loc.zt, Q.at, hA, hG, Pi.add_apply, Pi.mul_apply]; ring

lemma mix_zv_D (h : Rates low t) (hv : v ≠ 0) :
    D (fun w : ℝ × ℝ => ((mixQ low w.1).at x y).zv w.2)
      (((mixQ low t).at x y).zvt ((mixQt low t).at x y) v) (((mixQ low t).at x y).zvv v) (t, v) := by
  obtain ⟨A, hA⟩ : ∃ A, ∀ w, form 1 (mixQ low w).be x y = A := ⟨form 1 (mixQ low t).be x y, fun _ => rfl⟩
  obtain ⟨G, hG⟩ : ∃ G, ∀ w, form 3 (mixQ low w).g x y = G := ⟨form 3 (mixQ low t).g x y, fun _ => rfl⟩
  have h5 := ((((d_inv 3 hv).const_mul (-2 * A)).add ((d_inv 5 hv).const_mul
    (-4 * G + 2 * A * G))).add ((d_inv 7 hv).const_mul (2 * G ^ 2))).mul (xp_d G hv)
  have h0 := lin (form_t (x := x) (y := y) 2 h.b) (form_t (x := x) (y := y) 3 h.c)
    (form_t (x := x) (y := y) 5 h.d) (form_t (x := x) (y := y) 6 h.e) (form_t (x := x) (y := y) 2 h.f)
    (((d_inv 2 hv).const_mul (-1))) ((d_inv 3 hv).const_mul (-2))
    ((d_inv 5 hv).const_mul (-4)) ((d_inv 6 hv).const_mul (-5)) h5
  refine (h0.to ?_ ?_).congr (Eventually.of_forall fun w => ?_)
  · simp only [Loc.zvt, Q.at, hA, hG, Pi.add_apply, Pi.mul_apply]; ring
  · simp only [Loc.zvv, Q.at, hA, hG, Pi.add_apply]; push_cast; ring
  · simp only [Loc.zv, Q.at, hA, hG, Pi.add_apply, Pi.mul_apply]; ring

lemma mix_lnv_D (h : Rates low t) (i : Species) (hv : v ≠ 0) (hz : ((mixQ low t).at x y).z v ≠ 0) :
    D (fun w : ℝ × ℝ => ((mixQ low w.1).at x y).lnv i w.2)
      (((mixQ low t).at x y).lnvt ((mixQt low t).at x y) i v) (((mixQ low t).at x y).lnvv i v) (t, v) := by
  obtain ⟨A, hA⟩ : ∃ A, ∀ w, form 1 (mixQ low w).be x y = A := ⟨form 1 (mixQ low t).be x y, fun _ => rfl⟩
  obtain ⟨G, hG⟩ : ∃ G, ∀ w, form 3 (mixQ low w).g x y = G := ⟨form 3 (mixQ low t).g x y, fun _ => rfl⟩
  obtain ⟨A', hA'⟩ : ∃ A, ∀ w, form' 1 (mixQ low w).be i x y = A := ⟨form' 1 (mixQ low t).be i x y, fun _ => rfl⟩
  obtain ⟨G', hG'⟩ : ∃ G, ∀ w, form' 3 (mixQ low w).g i x y = G := ⟨form' 3 (mixQ low t).g i x y, fun _ => rfl⟩
  have h5 := (((d_inv 3 hv).const_mul (-A)).add ((d_inv 5 hv).const_mul (-G))).mul (xp_d G hv)
  have h6 := ((((d_inv 3 hv).const_mul (-A')).add ((d_inv 5 hv).const_mul (-(G' - A * (G' - G))))).add
    ((d_inv 7 hv).const_mul ((G' - G) * G))).mul (xp_d G hv)
  have h0 := lin6 (form'_t (x := x) (y := y) 2 i h.b) (form'_t (x := x) (y := y) 3 i h.c)
    (form'_t (x := x) (y := y) 5 i h.d) (form'_t (x := x) (y := y) 6 i h.e) (form'_t (x := x) (y := y) 2 i h.f)
    (form_t (x := x) (y := y) 2 h.f)
    (((d_inv 2 hv).const_mul (-1))) ((d_inv 3 hv).const_mul (-1))
    ((d_inv 5 hv).const_mul (-1)) ((d_inv 6 hv).const_mul (-1)) h5 h6
  refine ((((mix_zv_D (x := x) (y := y) h hv).neg.div (mixT_z_D h hv) hz).add h0).to ?_ ?_).congr
    (Eventually.of_forall fun w => ?_)
  · simp only [Loc.lnvt]
    generalize ((mixQ low t).at x y).z v = z at *
    generalize ((mixQ low t).at x y).zt ((mixQt low t).at x y) v = z1 at *
    generalize ((mixQ low t).at x y).zvt ((mixQt low t).at x y) v = z2 at *
    generalize ((mixQ low t).at x y).zv v = z3 at *
    simp only [Q.at, hA, hG, hA', hG', Pi.add_apply, Pi.mul_apply]
    field_simp
    ring
  · simp only [Loc.lnvv]
    generalize ((mixQ low t).at x y).z v = z at *
    generalize ((mixQ low t).at x y).zvv v = z2 at *
    generalize ((mixQ low t).at x y).zv v = z3 at *
    simp only [Q.at, hA, hG, hA', hG', Pi.add_apply]
    push_cast
    field_simp
    ring
  · simp only [Loc.lnv]
    generalize ((mixQ low w.1).at x y).z w.2 = z at *
    generalize ((mixQ low w.1).at x y).zv w.2 = z3 at *
    simp only [Q.at, hA, hG, hA', hG', Pi.add_apply, Pi.mul_apply]
    ring

lemma mix_lnt_D (hr : Rates low t) (h : Rates2 low t) (i : Species) (hv : v ≠ 0)
    (hz : ((mixQ low t).at x y).z v ≠ 0) (hg : ((mixQ low t).at x y).g ≠ 0) :
    D (fun w : ℝ × ℝ => ((mixQ low w.1).at x y).lnt ((mixQt low w.1).at x y) i w.2)
      (((mixQ low t).at x y).lntt ((mixQt low t).at x y) ((mixQtt low t).at x y) i v)
      (((mixQ low t).at x y).lnvt ((mixQt low t).at x y) i v) (t, v) := by
  obtain ⟨A, hA⟩ : ∃ A, ∀ w, form 1 (mixQ low w).be x y = A := ⟨form 1 (mixQ low t).be x y, fun _ => rfl⟩
  obtain ⟨G, hG⟩ : ∃ G, ∀ w, form 3 (mixQ low w).g x y = G := ⟨form 3 (mixQ low t).g x y, fun _ => rfl⟩
  obtain ⟨A', hA'⟩ : ∃ A, ∀ w, form' 1 (mixQ low w).be i x y = A := ⟨form' 1 (mixQ low t).be i x y, fun _ => rfl⟩
  obtain ⟨G', hG'⟩ : ∃ G, ∀ w, form' 3 (mixQ low w).g i x y = G := ⟨form' 3 (mixQ low t).g i x y, fun _ => rfl⟩
  have hG0 : G ≠ 0 := by simpa only [Q.at, hG] using hg
  have e1 := (hasDerivAt_const v (1 : ℝ)).sub (xp_d G hv)
  have e2 := (hasDerivAt_const v (1 : ℝ)).sub ((((d_inv 2 hv).const_mul G).add_const 1).mul (xp_d G hv))
  have e3 := ((((((d_inv 4 hv).const_mul (G * G)).add ((d_inv 2 hv).const_mul (2 * G))).add_const 2).mul
    (xp_d G hv)).const_add (-2))
  have h5 := (e1.const_mul (A / 2 / G)).add (e2.const_mul (G / 2 / G / G))
  have h6 := ((e1.const_mul (A' / 2 / G)).add (e2.const_mul ((G' - A * (G' - G)) / 2 / G / G))).add
    (e3.const_mul ((G' - G) / 2 / G / G))
  have h0 := lin6 (form'_t (x := x) (y := y) 2 i h.b) (form'_t (x := x) (y := y) 3 i h.c)
    (form'_t (x := x) (y := y) 5 i h.d) (form'_t (x := x) (y := y) 6 i h.e) (form'_t (x := x) (y := y) 2 i h.f)
    (form_t (x := x) (y := y) 2 h.f)
    (d_inv 1 hv) ((d_inv 2 hv).const_mul (1 / 2))
    ((d_inv 4 hv).const_mul (1 / 4)) ((d_inv 5 hv).const_mul (1 / 5)) h5 h6
  refine ((((mix_zt_D (x := x) (y := y) h hv).neg.div (mixT_z_D hr hv) hz).add h0).to ?_ ?_).congr
    (Eventually.of_forall fun w => ?_)
  · simp only [Loc.lntt]
    generalize ((mixQ low t).at x y).z v = z at *
    generalize ((mixQ low t).at x y).zt ((mixQt low t).at x y) v = z1 at *
    generalize ((mixQ low t).at x y).ztt ((mixQtt low t).at x y) v = z2 at *
    simp only [Q.at, hA, hG, hA', hG', Pi.add_apply, Pi.mul_apply, Pi.sub_apply]
    field_simp
    ring
  · simp only [Loc.lnvt]
    generalize ((mixQ low t).at x y).z v = z at *
    generalize ((mixQ low t).at x y).zt ((mixQt low t).at x y) v = z1 at *
    generalize ((mixQ low t).at x y).zvt ((mixQt low t).at x y) v = z2 at *
    generalize ((mixQ low t).at x y).zv v = z3 at *
    simp only [Q.at, hA, hG, hA', hG', Pi.add_apply]
    push_cast
    field_simp
    ring
  · simp only [Loc.lnt]
    generalize ((mixQ low w.1).at x y).z w.2 = z at *
    generalize ((mixQ low w.1).at x y).zt ((mixQt low w.1).at x y) w.2 = z1 at *
    simp only [Q.at, hA, hG, hA', hG', Pi.add_apply, Pi.mul_apply, Pi.sub_apply]
    ring

end

/-- What the driver returns as second derivatives is what its names say, at one temperature and pressure. -/
structure TTOk (o : ℝ × ℝ → MOut) (n : ℝ × ℝ → TOut) (m : TTOut) (t p : ℝ) : Prop where
  vt : D (fun w => (n w).dvdt) m.d2vdt2 m.d2vdtdp (t, p)
  vp : D (fun w => (o w).dvdp) m.d2vdtdp m.d2vdp2 (t, p)
  lt : ∀ i, D (fun w => (n w).lt i) (m.ltt i) (m.ltp i) (t, p)
  lp : ∀ i, D (fun w => (o w).lp i) (m.ltp i) (m.lpp i) (t, p)

lemma tt_driver_ok {low : Bool} {t r p : ℝ} {vol : ℝ × ℝ → ℝ} (ht : 0 < t) (hp : 0 < p) (h0 : 0 ≤ r)
    (h1 : r ≤ 1) (hreg : Regular low t) (h : TSolves low r vol t p) :
    TTOk (fun w => mixDriver Rv (mixQ low w.1) w.1 w.2 r (vol w)) (fun w => mixDriverT low w.1 r (vol w))
      (mixDriverTT low t p r (vol (t, p))) t p := by
  have dv0 := (t_driver_ok ht hp h0 h1 hreg h).v
  obtain ⟨hcont, hv, heos, hst⟩ := h
  have hr := rates ht hreg
  have hr2 := rates2 ht hreg
  have e0 := heos.self_of_nhds
  simp only at e0
  have hg := (gam_pos low t h0 h1).ne'
  have hR : (0 : ℝ) < Rv := by norm_num [Rv]
  have hz : 0 < ((mixQ low t).at (1 - r) r).z (vol (t, p)) := by
    have : 0 < ((mixQ low t).at (1 - r) r).z (vol (t, p)) * (Rv * t) := by rw [← mul_assoc, e0]; positivity
    exact pos_of_mul_pos_left this (by positivity)
  have dv : D vol (mixDriverT low t r (vol (t, p))).dvdt
    (mixDriver Rv (mixQ low t) t p r (vol (t, p))).dvdp (t, p) := dv0
  have F : D (fun w : ℝ × ℝ => w.1) 1 0 (t, p) := D.fst
  have S : D (fun w : ℝ × ℝ => w.2) 0 1 (t, p) := D.snd
  have cz := (mixT_z_D (x := 1 - r) (y := r) hr hv.ne').comp₂ (z := (t, p)) (x := Prod.fst) (y := vol) F dv
  have czv := (mix_zv_D (x := 1 - r) (y := r) hr hv.ne').comp₂ (z := (t, p)) (x := Prod.fst) (y := vol) F dv
  have czt := (mix_zt_D (x := 1 - r) (y := r) hr2 hv.ne').comp₂ (z := (t, p)) (x := Prod.fst) (y := vol) F dv
  have clv := fun i => (mix_lnv_D (x := 1 - r) (y := r) hr i hv.ne' hz.ne').comp₂ (z := (t, p)) (x := Prod.fst)
    (y := vol) F dv
  have clt := fun i => (mix_lnt_D (x := 1 - r) (y := r) hr hr2 i hv.ne' hz.ne' hg).comp₂ (z := (t, p))
    (x := Prod.fst) (y := vol) F dv
  have q1 : ((mixQ low t).at (1 - r) r).zv (vol (t, p)) / ((mixQ low t).at (1 - r) r).z (vol (t, p))
      - 1 / vol (t, p) ≠ 0 := fun h => hst (by linarith)
  have q0 : 1 / vol (t, p) - ((mixQ low t).at (1 - r) r).zv (vol (t, p))
      / ((mixQ low t).at (1 - r) r).z (vol (t, p)) ≠ 0 := fun h => hst (by linarith)
  have dvp : D (fun w => (mixDriver Rv (mixQ low w.1) w.1 w.2 r (vol w)).dvdp)
      (mixDriverTT low t p r (vol (t, p))).d2vdtdp (mixDriverTT low t p r (vol (t, p))).d2vdp2 (t, p) := by
    refine ((D.const 1).div (S.mul ((czv.div cz hz.ne').sub ((D.const 1).div dv hv.ne')))
      (mul_ne_zero hp.ne' q1)).to ?_ ?_
    all_goals
      simp only [mixDriver, mixDriverT, mixDriverTT]
      generalize vol (t, p) = v at *
      generalize ((mixQ low t).at (1 - r) r).z v = z at *
      generalize ((mixQ low t).at (1 - r) r).zv v = zv at *
      generalize ((mixQ low t).at (1 - r) r).zt ((mixQt low t).at (1 - r) r) v = zt at *
      generalize ((mixQ low t).at (1 - r) r).zvt ((mixQt low t).at (1 - r) r) v = zvt at *
      generalize ((mixQ low t).at (1 - r) r).zvv v = zvv at *
      obtain ⟨q, hq⟩ : ∃ q, q = zv / z - 1 / v := ⟨_, rfl⟩
      obtain ⟨u, hu⟩ : ∃ u, u = 1 / t + zt / z := ⟨_, rfl⟩
      have r1 : zv / z - 1 / v = q := hq.symm
      have r2 : 1 / v - zv / z = -q := by rw [hq]; ring
      have r3 : 1 / t + zt / z = u := hu.symm
      have s1 : zv = z * (q + 1 / v) := by rw [hq]; field_simp; ring
      have s2 : zt = z * (u - 1 / t) := by rw [hu]; field_simp; ring
      have hq0 : q ≠ 0 := r1 ▸ q1
      simp only [r1, r2, r3, s1, s2]
      clear * - hq0 ht hp hv hz
      field_simp
      ring
  have dvt : D (fun w => (mixDriverT low w.1 r (vol w)).dvdt)
      (mixDriverTT low t p r (vol (t, p))).d2vdt2 (mixDriverTT low t p r (vol (t, p))).d2vdtdp (t, p) := by
    refine ((((D.const 1).div F ht.ne').add (czt.div cz hz.ne')).div
      (((D.const 1).div dv hv.ne').sub (czv.div cz hz.ne')) q0).to ?_ ?_
    all_goals
      simp only [mixDriver, mixDriverT, mixDriverTT]
      generalize vol (t, p) = v at *
      generalize ((mixQ low t).at (1 - r) r).z v = z at *
      generalize ((mixQ low t).at (1 - r) r).zv v = zv at *
      generalize ((mixQ low t).at (1 - r) r).zt ((mixQt low t).at (1 - r) r) v = zt at *
      generalize ((mixQ low t).at (1 - r) r).zvt ((mixQt low t).at (1 - r) r) v = zvt at *
      generalize ((mixQ low t).at (1 - r) r).zvv v = zvv at *
      generalize ((mixQ low t).at (1 - r) r).ztt ((mixQtt low t).at (1 - r) r) v = ztt at *
      obtain ⟨q, hq⟩ : ∃ q, q = zv / z - 1 / v := ⟨_, rfl⟩
      obtain ⟨u, hu⟩ : ∃ u, u = 1 / t + zt / z := ⟨_, rfl⟩
      have r1 : zv / z - 1 / v = q := hq.symm
      have r2 : 1 / v - zv / z = -q := by rw [hq]; ring
      have r3 : 1 / t + zt / z = u := hu.symm
      have s1 : zv = z * (q + 1 / v) := by rw [hq]; field_simp; ring
      have s2 : zt = z * (u - 1 / t) := by rw [hu]; field_simp; ring
      have hq0 : q ≠ 0 := r1 ▸ q1
      simp only [r1, r2, r3, s1, s2]
      clear * - hq0 ht hp hv hz
      field_simp
      ring
  refine ⟨dvt, dvp, fun i => ?_, fun i => ?_⟩
  · refine (((clv i).mul dvt).add (clt i)).to ?_ ?_
    · simp only [mixDriverTT, mixDriverT, mixDriver]; ring
    · simp only [mixDriverTT, mixDriverT, mixDriver]; ring
  · refine ((clv i).mul dvp).to ?_ ?_
    · simp only [mixDriverTT, mixDriverT, mixDriver]; ring
    · simp only [mixDriverTT, mixDriverT, mixDriver]; ring

lemma tt_duan_ok {W : Bool → ℝ × ℝ → ℝ} {t r p : ℝ} {low : Bool} (ht : 0 < t) (hp : 0 < p)
    (h0 : 0 ≤ r) (h1 : r ≤ 1) (h : TSolves low r (W low) t p ∧ Regular low t)
    (h' : low = false → (TSolves true r (W true) t 2000 ∧ Regular true t) ∧ TSolves false r (W false) t 2000) :
    TTOk (fun w => mixDuan Rv (fun low z => W low (w.1, z.2)) low w.1 w.2 r)
      (fun w => mixDuanT (fun low z => W low (w.1, z.2)) low w.1 w.2 r)
      (mixDuanTT (fun low z => W low (t, z.2)) low t p r) t p := by
  have o := tt_driver_ok ht hp h0 h1 h.2 h.1
  cases low
  · obtain ⟨⟨a1, b1⟩, a2⟩ := h' rfl
    have l := tt_driver_ok ht (by norm_num) h0 h1 b1 a1
    have k := tt_driver_ok ht (by norm_num) h0 h1 h.2 a2
    have F : D (fun w : ℝ × ℝ => w.1) 1 0 (t, p) := D.fst
    refine ⟨o.vt, o.vp, fun i => ?_, o.lp⟩
    refine (((o.lt i).add (D.comp (f := fun w : ℝ × ℝ => w.1) (l.lt i).left F)).sub
      (D.comp (f := fun w : ℝ × ℝ => w.1) (k.lt i).left F)).to ?_ ?_
    · simp [mixDuanTT]
    · simp [mixDuanTT]
  · exact o

section

variable {W : Bool → ℝ × ℝ → ℝ} {P : Species → Bool → ℝ × ℝ → ℝ} {t r p : ℝ}

/-- **C83.**  The reported heat capacity of mixing is the temperature times the temperature derivative of the
reported entropy of mixing. -/
theorem C83_heat_capacity (ht : 0 < t) (hp : 0 < p) (h0 : 0 < r) (h1 : r < 1) (h : TFound W r t p)
    (hP : ∀ s, Found s (P s) (isLow p) t p) :
    HasDerivAt (fun t => smix (volsAt W P t) t p r) (cpmix (volsAt W P t) t p r / t) t := by
  have o := t_duan_ok ht hp h0.le h1.le h.1 h.2
  have m := tt_duan_ok ht hp h0.le h1.le h.1 h.2
  have c := fun s => duan_ok ht hp (hP s)
  have ep : ∀ vol : Bool → ℝ × ℝ → ℝ, ∀ t i, (mixDuan Rg vol (isLow p) t p r).phi i
      = (mixDuan Rv vol (isLow p) t p r).phi i := fun vol t i => congrFun (phi_R Rg Rv ..) i
  have k0 := fun s => hasDerivAt_const t (xs r s * Real.log (xs r s))
  have d := ((((((((k0 .h2o).add ((o.ln .h2o).left.const_mul (xs r .h2o))).sub
      ((c .h2o).ln.left.const_mul (xs r .h2o))).add (k0 .co2)).add ((o.ln .co2).left.const_mul (xs r .co2))).sub
      ((c .co2).ln.left.const_mul (xs r .co2))).const_mul Rg).add
    (((hasDerivAt_id t).const_mul Rg).mul (((((m.lt .h2o).left.const_mul (xs r .h2o)).sub
      ((c .h2o).lt.left.const_mul (xs r .h2o))).add ((m.lt .co2).left.const_mul (xs r .co2))).sub
      ((c .co2).lt.left.const_mul (xs r .co2))))).mul_const (-1)
  refine (d.congr_deriv ?_).congr_of_eventuallyEq (Eventually.of_forall fun t => ?_)
  · simp only [cpmix, volsAt, id, Pi.add_apply, Pi.sub_apply]
    field_simp
    ring
  · simp only [smix, ep]
    rfl

/-- **C83.**  The reported heat capacity of mixing is the temperature derivative of the reported enthalpy of
mixing. -/
theorem C83_enthalpy (ht : 0 < t) (hp : 0 < p) (h0 : 0 < r) (h1 : r < 1) (h : TFound W r t p)
    (hP : ∀ s, Found s (P s) (isLow p) t p) :
    HasDerivAt (fun t => hmix (volsAt W P t) t p r) (cpmix (volsAt W P t) t p r) t := by
  have d := (C82_entropy ht hp h0 h1 h hP).add ((hasDerivAt_id t).mul (C83_heat_capacity ht hp h0 h1 h hP))
  refine (d.congr_deriv ?_).congr_of_eventuallyEq (Eventually.of_forall fun t => ?_)
  · simp only [id]
    field_simp
    ring
  · simp only [C82_enthalpy]; rfl

/-- **C83.**  The reported composition derivative of the heat capacity of mixing is the temperature times the
temperature derivative of the reported composition derivative of the entropy of mixing. -/
theorem C83_heat_capacity_slope (ht : 0 < t) (hp : 0 < p) (h0 : 0 < r) (h1 : r < 1) (h : TFound W r t p)
    (hP : ∀ s, Found s (P s) (isLow p) t p) :
    HasDerivAt (fun t => smixX (volsAt W P t) t p r) (cpmixX (volsAt W P t) t p r / t) t := by
  have o := t_duan_ok ht hp h0.le h1.le h.1 h.2
  have m := tt_duan_ok ht hp h0.le h1.le h.1 h.2
  have c := fun s => duan_ok ht hp (hP s)
  have ep : ∀ vol : Bool → ℝ × ℝ → ℝ, ∀ t i, (mixDuan Rg vol (isLow p) t p r).phi i
      = (mixDuan Rv vol (isLow p) t p r).phi i := fun vol t i => congrFun (phi_R Rg Rv ..) i
  have d := (((((((((o.ln .h2o).left.const_sub (-Real.log (xs r .h2o))).add
      (c .h2o).ln.left).add_const (Real.log (xs r .co2))).add (o.ln .co2).left).sub
      (c .co2).ln.left).const_mul Rg).add
    (((hasDerivAt_id t).const_mul Rg).mul ((((m.lt .h2o).left.neg.add (c .h2o).lt.left).add
      (m.lt .co2).left).sub (c .co2).lt.left)))).neg
  refine (d.congr_deriv ?_).congr_of_eventuallyEq (Eventually.of_forall fun t => ?_)
  · simp only [cpmixX, volsAt, id, Pi.add_apply, Pi.sub_apply, Pi.neg_apply]
    field_simp
    ring
  · simp only [smixX, ep]
    rfl

/-- **C83.**  The three reported second derivatives of the volume of mixing are those of the two reported first
ones. -/
theorem C83_volume (ht : 0 < t) (hp : 0 < p) (h0 : 0 ≤ r) (h1 : r ≤ 1) (h : TFound W r t p)
    (hP : ∀ s, Found s (P s) (isLow p) t p) :
    HasDerivAt (fun t => vmixT (volsAt W P t) t p r) (vmixTT (volsAt W P t) t p r) t
      ∧ HasDerivAt (fun t => vmixP (volsAt W P t) t p r) (vmixTP (volsAt W P t) t p r) t := by
  have m := tt_duan_ok ht hp h0 h1 h.1 h.2
  have c := fun s => duan_ok ht hp (hP s)
  have ev : ∀ vol : Bool → ℝ × ℝ → ℝ, ∀ t, (mixDuan Rg vol (isLow p) t p r).dvdp
      = (mixDuan Rv vol (isLow p) t p r).dvdp := fun vol t => by cases isLow p <;> rfl
  refine ⟨?_, ?_⟩
  · exact (m.vt.left.sub ((c .h2o).vt.left.const_mul (xs r .h2o))).sub ((c .co2).vt.left.const_mul (xs r .co2))
  · refine (((m.vp.left.sub ((c .h2o).vp.left.const_mul (xs r .h2o))).sub
      ((c .co2).vp.left.const_mul (xs r .co2))).congr_deriv rfl).congr_of_eventuallyEq
      (Eventually.of_forall fun t => ?_)
    simp only [vmixP, ev]
    rfl

/-- **C83.**  The reported mixed derivative of the volume of mixing with respect to composition and temperature is
the temperature derivative of the reported composition derivative. -/
theorem C83_volume_slope_temperature (ht : 0 < t) (hp : 0 < p) (h0 : 0 ≤ r) (h1 : r ≤ 1) (h : TFound W r t p)
    (hP : ∀ s, Found s (P s) (isLow p) t p) :
    HasDerivAt (fun t => vmixX (volsAt W P t) t p r) (vmixXT (volsAt W P t) t p r) t := by
  have m := tt_duan_ok ht hp h0 h1 h.1 h.2
  have c := fun s => duan_ok ht hp (hP s)
  have ev : ∀ vol : Bool → ℝ × ℝ → ℝ, ∀ t, (mixDuan Rg vol (isLow p) t p r).lp
      = (mixDuan Rv vol (isLow p) t p r).lp := fun vol t => by cases isLow p <;> rfl
  have i := (hasDerivAt_id t).const_mul Rg
  have d := (i.mul ((m.lp .co2).left.sub (m.lp .h2o).left)).sub (i.mul ((c .co2).lp.left.sub (c .h2o).lp.left))
  refine (d.congr_deriv ?_).congr_of_eventuallyEq (Eventually.of_forall fun t => ?_)
  · simp only [vmixXT, ev, volsAt, id, Pi.sub_apply]
    ring
  · simp only [vmixX, ev]
    rfl

/-- **C83.**  Away from the change of coefficients at 2000 bar, the reported second derivatives of the volume of
mixing and its mixed derivative with respect to composition and pressure are the pressure derivatives of the
reported thermal expansion, compression and composition derivative. -/
theorem C83_volume_pressure (ht : 0 < t) (hp : 0 < p) (hp' : p ≠ 2000) (h0 : 0 ≤ r) (h1 : r ≤ 1)
    (h : TFound W r t p) (hP : ∀ s, Found s (P s) (isLow p) t p) :
    HasDerivAt (fun p => vmixT (volsAt W P t) t p r) (vmixTP (volsAt W P t) t p r) p
      ∧ HasDerivAt (fun p => vmixP (volsAt W P t) t p r) (vmixPP (volsAt W P t) t p r) p
      ∧ HasDerivAt (fun p => vmixX (volsAt W P t) t p r) (vmixXP (volsAt W P t) t p r) p := by
  have m := tt_duan_ok ht hp h0 h1 h.1 h.2
  have c := fun s => duan_ok ht hp (hP s)
  have ev : ∀ vol : Bool → ℝ × ℝ → ℝ, ∀ p low, (mixDuan Rg vol low t p r).dvdp
      = (mixDuan Rv vol low t p r).dvdp := fun vol p low => by cases low <;> rfl
  have el : ∀ vol : Bool → ℝ × ℝ → ℝ, ∀ p low, (mixDuan Rg vol low t p r).lp
      = (mixDuan Rv vol low t p r).lp := fun vol p low => by cases low <;> rfl
  have hl := low_near hp'
  refine ⟨?_, ?_, ?_⟩
  · refine (((m.vt.right.sub ((c .h2o).vt.right.const_mul (xs r .h2o))).sub
      ((c .co2).vt.right.const_mul (xs r .co2))).congr_deriv rfl).congr_of_eventuallyEq ?_
    filter_upwards [hl] with q hq
    simp only [vmixT, hq]
    rfl
  · refine (((m.vp.right.sub ((c .h2o).vp.right.const_mul (xs r .h2o))).sub
      ((c .co2).vp.right.const_mul (xs r .co2))).congr_deriv rfl).congr_of_eventuallyEq ?_
    filter_upwards [hl] with q hq
    simp only [vmixP, hq, ev]
    rfl
  · have d := (((m.lp .co2).right.sub (m.lp .h2o).right).const_mul (Rg * t)).sub
      (((c .co2).lp.right.sub (c .h2o).lp.right).const_mul (Rg * t))
    refine (d.congr_deriv ?_).congr_of_eventuallyEq ?_
    · simp only [vmixXP, volsAt]
      ring
    · filter_upwards [hl] with q hq
      simp only [vmixX, hq, el]
      rfl

/-- The hypotheses of the theorems of C83 are those of C82: they are met at every temperature from 650 K on where
no coefficient vanishes, at every composition and every low enough pressure. -/
example {t r : ℝ} (ht : 650 ≤ t) (hreg : Regular true t) (h0 : 0 < r) (h1 : r < 1) :
    ∃ p0, 0 < p0 ∧ ∀ p, 0 < p → p < p0 → ∃ (W : Bool → ℝ × ℝ → ℝ) (P : Species → Bool → ℝ × ℝ → ℝ),
      HasDerivAt (fun t => hmix (volsAt W P t) t p r) (cpmix (volsAt W P t) t p r) t := by
  obtain ⟨p0, a0, -, h⟩ := C82_states (r := r) ht hreg
  refine ⟨p0, a0, fun p b0 b1 => ?_⟩
  obtain ⟨W, P, hW, hP⟩ := h p b0 b1
  exact ⟨W, P, C83_enthalpy (by linarith) b0 h0 h1 hW hP⟩

/-- They are met above 2000 bar too, where the heat capacity carries the two corrections at 2000 bar. -/
example {s : Species} {p : ℝ} (hp : 2000 < p) (hp' : p ≤ 2200) : ∀ᶠ r in 𝓝 s.x.2, 0 < r → r < 1 →
    ∃ (W : Bool → ℝ × ℝ → ℝ) (P : Species → Bool → ℝ × ℝ → ℝ),
      HasDerivAt (fun t => smix (volsAt W P t) t p r) (cpmix (volsAt W P 2589) 2589 p r / 2589) 2589
      ∧ HasDerivAt (fun p => vmixX (volsAt W P 2589) 2589 p r) (vmixXP (volsAt W P 2589) 2589 p r) p := by
  filter_upwards [C82_states_hot s hp hp'] with r h h0 h1
  obtain ⟨W, P, hW, hP⟩ := h
  exact ⟨W, P, C83_heat_capacity (by norm_num) (by linarith) h0 h1 hW hP,
    (C83_volume_pressure (by norm_num) (by linarith) hp.ne' h0.le h1.le hW hP).2.2⟩

end

end Verif.Thermo.Fluid
