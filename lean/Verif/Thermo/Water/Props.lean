import Verif.Thermo.Water.Loop
import Mathlib.Analysis.Calculus.InverseFunctionTheorem.FDeriv
import Mathlib.Analysis.Calculus.MeanValue

/-!
# The properties of water the program reports, and how they agree with each other
-/

open Filter Topology Real

namespace Verif.Thermo.Water

open StdState (Std Consistent)

/-- The record with its enthalpy replaced by `G + TS`. -/
def withH (t : ℝ) (x : Std) : Std := { x with h := x.g + t * x.s }

/-- `ρ` is a density of water near `(t, p)`: continuous there, positive and at most 4 g/cm³, and the
pressure of the density loop at it is the pressure asked for. -/
structure Solves (ρ : ℝ × ℝ → ℝ) (t p : ℝ) : Prop where
  cont : ContinuousAt ρ (t, p)
  pos : 0 < ρ (t, p)
  le : ρ (t, p) < 4
  solves : ∀ᶠ w in 𝓝 (t, p), loopP w.1 (ρ w) = w.2

lemma const_consistent (c t p : ℝ) : Consistent (fun _ _ => ⟨c, c, 0, 0, 0, 0, 0, 0, 0, 0, 0⟩) t p where
  gibbs := by simp
  entropy := by simpa using hasDerivAt_const t c
  volume := hasDerivAt_const p c
  heat := hasDerivAt_const t c
  heatS := by simpa using hasDerivAt_const t (0 : ℝ)
  maxwell := by simpa using hasDerivAt_const p (0 : ℝ)
  dcpdt := hasDerivAt_const t _
  dvdt := hasDerivAt_const t _
  dvdp := hasDerivAt_const p _
  d2vdt2 := hasDerivAt_const t _
  d2vdp2 := hasDerivAt_const p _
  d2vdtdp := hasDerivAt_const p _
  d2vdpdt := hasDerivAt_const t _

lemma solves_press {ρ : ℝ × ℝ → ℝ} {t p : ℝ} (h1 : 810 < t) (h2 : t < 5000) (h : Solves ρ t p) :
    ∀ᶠ w in 𝓝 (t, p), press w.1 (ρ w) = w.2 := by
  have e1 : ∀ᶠ w : ℝ × ℝ in 𝓝 (t, p), 810 < w.1 := continuousAt_fst.eventually_const_lt h1
  have e2 : ∀ᶠ w : ℝ × ℝ in 𝓝 (t, p), w.1 < 5000 := continuousAt_fst.eventually_lt_const h2
  filter_upwards [e1, e2, h.cont.eventually_const_lt h.pos, h.cont.eventually_lt_const h.le, h.solves]
    with w a1 a2 a3 a4 a5
  rw [← a5, C79_loop_hot a1 a2.le a3 a4.le]

lemma dpdrh_eq {t rh : ℝ} (h1 : 810 < t) (h2 : t ≤ 5000) (h3 : 0 < rh) (h4 : rh < 4) :
    dpdrh (helm t rh) rh = deriv (press t) rh := by
  have hok := ok_helm (sound h1 h2 h3 h4.le) (offCut (rh := rh) h1)
  have := (((D.snd.mul D.snd).mul hok.r).right (t := t) (p := rh))
  refine ((this.congr_deriv ?_).deriv (f := press t)).symm
  simp only [dpdrh]; ring

/-- The properties at the solved density, apart from the reference state. -/
lemma gram_consistent {ρ : ℝ × ℝ → ℝ} {t p : ℝ} (h1 : 810 < t) (h2 : t < 5000) (h : Solves ρ t p)
    (hd : deriv (press t) (ρ (t, p)) ≠ 0) :
    Consistent (fun t p => perGram t (ρ (t, p)) (helm t (ρ (t, p)))) t p := by
  have := perGram_consistent (A := fun z => helm z.1 z.2) (ρ := ρ) (t := t) (p := p)
    (ok_helm (sound h1 h2.le h.pos h.le.le) (offCut h1)) h.pos (by linarith)
    (by rw [dpdrh_eq h1 h2.le h.pos h.le]; exact hd) h.cont (solves_press h1 h2 h)
  exact this

lemma std_add (a b : Std) : a + b = ⟨a.g + b.g, a.h + b.h, a.s + b.s, a.v + b.v, a.cp + b.cp,
  a.dcpdt + b.dcpdt, a.dvdt + b.dvdt, a.dvdp + b.dvdp, a.d2vdt2 + b.d2vdt2, a.d2vdp2 + b.d2vdp2,
  a.d2vdtdp + b.d2vdtdp⟩ := rfl

lemma joules_at (melts : Bool) (t r : ℝ) : withH t (joules (atDensity melts t r))
    = (perGram t r (helm t r)).scale 1.80152
      + ⟨(refer melts).1, (refer melts).1, 0, 0, 0, 0, 0, 0, 0, 0, 0⟩ := by
  rw [std_add]
  ext <;> simp only [withH, joules, atDensity, perMole, Std.scale] <;> try ring
  simp only [perGram]; ring

/-- The Gibbs energy of the reference state differs from the enthalpy of the reference state. -/
lemma offset (t r : ℝ) (melts : Bool) : (atDensity melts t r).g = (atDensity melts t r).h
    - t * (atDensity melts t r).s + ((refer melts).1 - (refer melts).2) := by
  simp only [atDensity, perMole, perGram]; ring

/-- **Below 10 kbar**: along any continuous density that the loop's equation holds for, the reported
properties of water agree with each other (the entropy, the volume, the heat capacity and all the
derivatives are those of the Gibbs energy), but for the enthalpy, which is below `G + TS` by a
constant: the reference states of the two are not the same. -/
theorem C79_water_low {ρ : ℝ × ℝ → ℝ} {t p : ℝ} (h1 : 810 < t) (h2 : t < 5000) (hp : p < 10000)
    (h : Solves ρ t p) (hd : deriv (press t) (ρ (t, p)) ≠ 0) :
    Consistent (fun t p => withH t (water ρ t p)) t p
    ∧ (water ρ t p).h + (54955.23970014 - 34099.89230644 - 298.15 * 69.9146)
      = (water ρ t p).g + t * (water ρ t p).s := by
  have hw : ∀ t' p', p' < 10000 → water ρ t' p' = joules (atDensity true t' (ρ (t', p'))) := by
    intro t' p' hp'
    simp only [water, if_neg (not_lt.2 hp'.le), if_pos hp'.le]
  constructor
  · refine ((gram_consistent h1 h2 h hd).scale 1.80152 |>.add
      (const_consistent (refer true).1 t p)).congr ?_ ?_
    · exact Eventually.of_forall fun t' => by rw [hw _ _ hp, joules_at]
    · filter_upwards [gt_mem_nhds hp] with p' hp'
      rw [hw _ _ hp', joules_at]
  · have := offset t (ρ (t, p)) true
    rw [hw t p hp]
    show (atDensity true t (ρ (t, p))).h + _ = (atDensity true t (ρ (t, p))).g
      + t * (atDensity true t (ρ (t, p))).s
    simp only [refer, if_true] at this
    linarith

/-! ## Above 10 kbar -/

/-- `a xʲ yˡ` and its derivatives, with `x` the temperature in Celsius. -/
noncomputable def mono (a : ℝ) (j l : ℕ) (t p : ℝ) : J :=
  (ofT (a * (t - 273.15) ^ j) (a * (j * (t - 273.15) ^ (j - 1)))
    (a * (j * ((j - 1 : ℕ) * (t - 273.15) ^ (j - 2))))
    (a * (j * ((j - 1 : ℕ) * ((j - 2 : ℕ) * (t - 273.15) ^ (j - 3)))))).mul
  (ofR (p ^ l) (l * p ^ (l - 1)) (l * ((l - 1 : ℕ) * p ^ (l - 2)))
    (l * ((l - 1 : ℕ) * ((l - 2 : ℕ) * p ^ (l - 3)))))

lemma d_cel (n : ℕ) (t : ℝ) : HasDerivAt (fun t : ℝ => (t - 273.15) ^ n) (n * (t - 273.15) ^ (n - 1)) t := by
  simpa using ((hasDerivAt_id t).sub_const 273.15).fun_pow n

lemma ok_mono (a : ℝ) (j l : ℕ) (z : ℝ × ℝ) : Ok (fun z => mono a j l z.1 z.2) z := by
  refine Ok.mul (F := fun z => ofT _ _ _ _) (G := fun z => ofR _ _ _ _)
    (ok_ofT (g := fun t => ofT (a * (t - 273.15) ^ j) (a * (j * (t - 273.15) ^ (j - 1)))
    (a * (j * ((j - 1 : ℕ) * (t - 273.15) ^ (j - 2))))
    (a * (j * ((j - 1 : ℕ) * ((j - 2 : ℕ) * (t - 273.15) ^ (j - 3)))))) (fun _ => rfl) ?_ ?_ ?_)
    (ok_ofR (g := fun p => ofR (p ^ l) (l * p ^ (l - 1)) (l * ((l - 1 : ℕ) * p ^ (l - 2)))
    (l * ((l - 1 : ℕ) * ((l - 2 : ℕ) * p ^ (l - 3))))) (fun _ => rfl) ?_ ?_ ?_)
  · exact (d_cel j _).const_mul a
  · exact ((d_cel (j - 1) _).const_mul _).const_mul a
  · exact (((d_cel (j - 2) _).const_mul _).const_mul _).const_mul a
  · exact hasDerivAt_pow l _
  · exact (hasDerivAt_pow (l - 1) _).const_mul _
  · exact ((hasDerivAt_pow (l - 2) _).const_mul _).const_mul _

lemma dhTerm_eq (e : ℝ × ℕ × ℕ) (he : e ∈ dhTable) (t p : ℝ) :
    dhTerm e (t - 273.15) p = mono e.1 e.2.1 e.2.2 t p := by
  simp only [dhTable, List.mem_cons, List.not_mem_nil, or_false] at he
  rcases he with rfl | rfl | rfl | rfl | rfl | rfl | rfl | rfl | rfl | rfl | rfl | rfl | rfl | rfl | rfl <;>
    ext <;> simp [dhTerm, mono, ofT, ofR, J.mul] <;> ring_nf <;> simp

lemma ok_dh (z : ℝ × ℝ) : Ok (fun z => dhJ z.1 z.2) z :=
  (Ok.sum (fun e z => mono e.1 e.2.1 e.2.2 z.1 z.2) dhTable fun e _ => ok_mono _ _ _ _).congr
    (Eventually.of_forall fun z => congrArg List.sum (List.map_congr_left fun e he => dhTerm_eq e he _ _))

/-- The thermal part of a record at a fixed pressure. -/
def thermalPart (x : Std) : Std := ⟨x.g, x.h, x.s, 0, x.cp, x.dcpdt, 0, 0, 0, 0, 0⟩

lemma freeze {F : ℝ → ℝ → Std} {t p0 : ℝ} (h : Consistent F t p0) (p : ℝ) :
    Consistent (fun t _ => thermalPart (F t p0)) t p where
  gibbs := h.gibbs
  entropy := h.entropy
  volume := hasDerivAt_const p _
  heat := h.heat
  heatS := h.heatS
  maxwell := (hasDerivAt_const p (F t p0).s).congr_deriv (by simp [thermalPart])
  dcpdt := h.dcpdt
  dvdt := hasDerivAt_const t _
  dvdp := hasDerivAt_const p _
  d2vdt2 := hasDerivAt_const t _
  d2vdp2 := hasDerivAt_const p _
  d2vdtdp := hasDerivAt_const p _
  d2vdpdt := hasDerivAt_const t _

lemma dh_consistent {t : ℝ} (ht : 0 < t) (p : ℝ) :
    Consistent (fun t p => withH t (dhProps t (dhJ t p))) t p := by
  have h := ok_dh (t, p)
  have ht' := ht.ne'
  exact {
    gibbs := by simp only [withH]; ring
    entropy := h.v.left.congr_deriv (by simp only [withH, dhProps]; ring)
    volume := h.v.right
    heat := by
      have := h.v.left.add ((hasDerivAt_id t).mul h.t.left.neg)
      refine this.congr_deriv ?_
      simp only [withH, dhProps, id, Pi.neg_apply]; ring
    heatS := h.t.left.neg.congr_deriv (by simp only [withH, dhProps]; field_simp)
    maxwell := h.t.right.neg
    dcpdt := by
      have := ((hasDerivAt_id t).neg.mul h.tt.left)
      refine this.congr_deriv ?_
      simp only [withH, dhProps, id, Pi.neg_apply]; ring
    dvdt := h.r.left
    dvdp := h.r.right
    d2vdt2 := h.tr.left
    d2vdp2 := h.rr.right
    d2vdtdp := h.tr.right
    d2vdpdt := h.rr.left }

/-- **Above 10 kbar**: the same agreement, along a density of water at 10 kbar.  The reported enthalpy
is off by twice the temperature times the entropy of compression from 10 kbar: the source forms the
enthalpies of compression with the wrong sign. -/
theorem C79_water_high {ρ : ℝ × ℝ → ℝ} {t p : ℝ} (h1 : 810 < t) (h2 : t < 5000) (hp : 10000 < p)
    (h : Solves ρ t 10000) (hd : deriv (press t) (ρ (t, 10000)) ≠ 0) :
    Consistent (fun t p => withH t (water ρ t p)) t p
    ∧ (water ρ t p).h + (54955.23970014 - 34099.89230644 - 298.15 * 69.9146)
        + 2 * t * ((water ρ t p).s - (water ρ t 10000).s)
      = (water ρ t p).g + t * (water ρ t p).s := by
  have hw : ∀ t' p', 10000 < p' → withH t' (water ρ t' p')
      = thermalPart ((perGram t' (ρ (t', 10000)) (helm t' (ρ (t', 10000)))).scale 1.80152)
        + ⟨(refer true).1, (refer true).1, 0, 0, 0, 0, 0, 0, 0, 0, 0⟩
        + (withH t' (dhProps t' (dhJ t' p'))).scale 4.184
        + (thermalPart (withH t' (dhProps t' (dhJ t' 10000)))).scale (-4.184) := by
    intro t' p' hp'
    have e := joules_at true t' (ρ (t', 10000))
    have e1 := congrArg Std.g e
    have e2 := congrArg Std.s e
    have e3 := congrArg Std.cp e
    have e4 := congrArg Std.dcpdt e
    have e5 := congrArg Std.h e
    simp only [water, if_pos hp', if_neg (not_le.2 hp')]
    simp only [std_add] at *
    simp only [withH, joules, wdh78, Std.scale, thermalPart] at *
    ext <;> simp only [add_zero, zero_add, mul_zero] at *
    · linarith
    · linear_combination e5
    · linarith
    · ring
    · linarith
    · linarith
    all_goals ring
  constructor
  · refine (((freeze ((gram_consistent h1 h2 h hd).scale 1.80152) p).add
      (const_consistent (refer true).1 t p)).add ((dh_consistent (by linarith) p).scale 4.184) |>.add
      ((freeze (dh_consistent (by linarith) 10000) p).scale (-4.184))).congr ?_ ?_
    · exact Eventually.of_forall fun t' => hw _ _ hp
    · filter_upwards [lt_mem_nhds hp] with p' hp'
      exact hw _ _ hp'
  · have := offset t (ρ (t, 10000)) true
    simp only [refer, if_true] at this
    simp only [water, if_pos hp, if_neg (not_le.2 hp), lt_irrefl, if_false, le_refl, if_true, joules, wdh78,
      dhProps]
    linarith

/-- **The enthalpy of water at 1200 °C and 20 kbar is more than 13 kJ too large**, whatever the density
found. -/
theorem C79_enthalpy_error (ρ : ℝ × ℝ → ℝ) :
    (water ρ 1473.15 20000).g + 1473.15 * (water ρ 1473.15 20000).s + 13000 < (water ρ 1473.15 20000).h := by
  have := offset 1473.15 (ρ (1473.15, 10000)) true
  simp only [refer, if_true] at this
  have hp : (10000 : ℝ) < 20000 := by norm_num
  have hS : (wdh78 1473.15 20000).s < -4.45 := by
    simp only [wdh78, dhProps, dhJ, dhTable, List.map_cons, List.map_nil, List.sum_cons, List.sum_nil, add_t,
      zero_t, dhTerm]
    norm_num
  have e : (wdh78 1473.15 20000).h = (wdh78 1473.15 20000).g - 1473.15 * (wdh78 1473.15 20000).s := by
    simp only [wdh78, dhProps]; ring
  simp only [water, if_pos hp, if_neg (not_le.2 hp), joules]
  norm_num at this hS e ⊢
  linarith

/-! ## A density exists -/

/-- The pressure has a non-zero slope in density: there is a density near it at every pressure nearby,
and it is the one a user of `Solves` needs. -/
theorem C79_density_exists {t r : ℝ} (h1 : 810 < t) (h2 : t < 5000) (h3 : 0 < r) (h4 : r < 4)
    (hd : deriv (press t) r ≠ 0) :
    ∃ ρ : ℝ × ℝ → ℝ, ρ (t, press t r) = r ∧ Solves ρ t (press t r) := by
  have okP : ∀ z : ℝ × ℝ, 810 < z.1 → z.1 < 5000 → 0 < z.2 → z.2 < 4 →
      Ok (fun z => helm z.1 z.2) z := fun z a b c d => ok_helm (sound a b.le c d.le) (offCut a)
  set a : ℝ × ℝ → ℝ := fun z => dpdt (helm z.1 z.2) z.2 with ha
  set b : ℝ × ℝ → ℝ := fun z => dpdrh (helm z.1 z.2) z.2 with hb
  have e1 : ∀ᶠ w : ℝ × ℝ in 𝓝 (t, r), 810 < w.1 := continuousAt_fst.eventually_const_lt h1
  have e2 : ∀ᶠ w : ℝ × ℝ in 𝓝 (t, r), w.1 < 5000 := continuousAt_fst.eventually_lt_const h2
  have e3 : ∀ᶠ w : ℝ × ℝ in 𝓝 (t, r), 0 < w.2 := continuousAt_snd.eventually_const_lt h3
  have e4 : ∀ᶠ w : ℝ × ℝ in 𝓝 (t, r), w.2 < 4 := continuousAt_snd.eventually_lt_const h4
  have hder : ∀ᶠ w : ℝ × ℝ in 𝓝 (t, r), HasFDerivAt (fun w : ℝ × ℝ => press w.1 w.2)
      (a w • ContinuousLinearMap.fst ℝ ℝ ℝ + b w • ContinuousLinearMap.snd ℝ ℝ ℝ) w := by
    filter_upwards [e1, e2, e3, e4] with w a1 a2 a3 a4
    have hok := okP w a1 a2 a3 a4
    exact ((D.snd.mul D.snd).mul hok.r).to (by simp only [ha, dpdt]; ring) (by simp only [hb, dpdrh]; ring)
  have hok := okP (t, r) h1 h2 h3 h4
  have cD : ∀ {f : ℝ × ℝ → ℝ} {x y : ℝ}, D f x y (t, r) → ContinuousAt f (t, r) :=
    fun h => HasFDerivAt.continuousAt h
  have ca : ContinuousAt a (t, r) :=
    (continuousAt_snd.mul continuousAt_snd).mul (cD hok.tr)
  have cb : ContinuousAt b (t, r) :=
    ((continuousAt_const.mul continuousAt_snd).mul (cD hok.r)).add
      ((continuousAt_snd.mul continuousAt_snd).mul (cD hok.rr))
  have hcont : ContinuousAt (fun w : ℝ × ℝ => a w • ContinuousLinearMap.fst ℝ ℝ ℝ
      + b w • ContinuousLinearMap.snd ℝ ℝ ℝ) (t, r) := by fun_prop
  have hstrict := hasStrictFDerivAt_fst.prodMk
    (hasStrictFDerivAt_of_hasFDerivAt_of_continuousAt hder hcont)
  have hbn : b (t, r) ≠ 0 := by rw [hb]; simp only []; rw [dpdrh_eq h1 h2.le h3 h4]; exact hd
  have hs : HasStrictFDerivAt (fun w : ℝ × ℝ => (w.1, press w.1 w.2))
      (shear (a (t, r)) (b (t, r)) hbn : ℝ × ℝ →L[ℝ] ℝ × ℝ) (t, r) := hstrict
  have himg : (hs.localInverse _ _ _) (t, press t r) = (t, r) := hs.localInverse_apply_image
  have himg2 : ((hs.localInverse _ _ _) (t, press t r)).2 = r := by rw [himg]
  have hcn : ContinuousAt (fun w => ((hs.localInverse _ _ _) w).2) (t, press t r) :=
    continuousAt_snd.comp hs.localInverse_continuousAt
  refine ⟨fun w => ((hs.localInverse _ _ _) w).2, himg2, hcn, h3.trans_eq himg2.symm,
    himg2.trans_lt h4, ?_⟩
  have hpos : ∀ᶠ w in 𝓝 (t, press t r), 0 < ((hs.localInverse _ _ _) w).2 :=
    hcn.eventually_const_lt (h3.trans_eq himg2.symm)
  have hlt : ∀ᶠ w in 𝓝 (t, press t r), ((hs.localInverse _ _ _) w).2 < 4 :=
    hcn.eventually_lt_const (himg2.trans_lt h4)
  have g1 : ∀ᶠ w : ℝ × ℝ in 𝓝 (t, press t r), 810 < w.1 := continuousAt_fst.eventually_const_lt h1
  have g2 : ∀ᶠ w : ℝ × ℝ in 𝓝 (t, press t r), w.1 < 5000 := continuousAt_fst.eventually_lt_const h2
  filter_upwards [hs.eventually_right_inverse, hpos, hlt, g1, g2] with w hw p1 p2 p3 p4
  have w1 : ((hs.localInverse (fun w : ℝ × ℝ => (w.1, press w.1 w.2)) _ _) w).1 = w.1 := (Prod.ext_iff.1 hw).1
  have w2 : press ((hs.localInverse (fun w : ℝ × ℝ => (w.1, press w.1 w.2)) _ _) w).1
      ((hs.localInverse (fun w : ℝ × ℝ => (w.1, press w.1 w.2)) _ _) w).2 = w.2 := (Prod.ext_iff.1 hw).2
  rw [C79_loop_hot p3 p4.le p1 p2.le, ← w1]
  exact w2

/-- **Water is a gas at low density**: at every temperature between 810 and 5000 K the pressure rises
with density at all small densities, and tends to zero with it. -/
theorem C79_gas {t : ℝ} (h1 : 810 < t) (h2 : t < 5000) :
    ∀ᶠ r in 𝓝[>] (0 : ℝ), 0 < deriv (press t) r ∧ |press t r| < 1 := by
  have hres := ok_res (z := (t, 0)) (by simp only []; linarith) (offCut h1)
  have c1 : ContinuousAt (fun r => (resJ t r).r) 0 := hres.r.right.continuousAt
  have c2 : ContinuousAt (fun r => (resJ t r).rr) 0 := hres.rr.right.continuousAt
  have hb := b_range (by linarith : 647.073 ≤ t) h2.le
  have cy : ContinuousAt (fun r => (yJ t r).v) 0 := by
    show ContinuousAt (fun r => r * (bJ t).v / 4) 0
    fun_prop
  have y0 : (yJ t 0).v = 0 := by show 0 * (bJ t).v / 4 = 0; simp
  have hn : ∀ n : ℕ, (1 - (yJ t 0).v) ^ n ≠ 0 := fun n => by rw [y0]; simp
  have c3 : ContinuousAt (fun r => rg * t * ((1 + 2 * al * (yJ t r).v + 3 * be * (yJ t r).v * (yJ t r).v)
      / (1 - (yJ t r).v) ^ 3 + 3 * (yJ t r).v * (1 + al * (yJ t r).v + be * (yJ t r).v * (yJ t r).v)
      / (1 - (yJ t r).v) ^ 4 + 2 * 4 * (yJ t r).v * ((bbJ t).v / (bJ t).v - ga))
      + (2 * r * (resJ t r).r + r * r * (resJ t r).rr)) 0 := by
    have := hn 3
    have := hn 4
    fun_prop (disch := assumption)
  have c4 : ContinuousAt (fun r => r * (rg * t * ((1 + al * (yJ t r).v + be * (yJ t r).v * (yJ t r).v)
      / (1 - (yJ t r).v) ^ 3 + 4 * (yJ t r).v * ((bbJ t).v / (bJ t).v - ga)))
      + r * r * (resJ t r).r) 0 := by
    have := hn 3
    fun_prop (disch := assumption)
  have v3 := c3.eventually_const_lt (u := 0) (by
    simp only [y0]; simp; exact mul_pos (by norm_num [rg]) (by linarith))
  have v4 := c4.abs.eventually_lt_const (u := 1) (by simp)
  have hlt : ∀ᶠ r in 𝓝 (0 : ℝ), r < 4 := gt_mem_nhds (by norm_num)
  filter_upwards [nhdsWithin_le_nhds v3, nhdsWithin_le_nhds v4, nhdsWithin_le_nhds hlt,
    self_mem_nhdsWithin] with r w3 w4 w5 w6
  have hr : 0 < r := w6
  have hs := sound h1 h2.le hr w5.le
  have e1 : r * (yJ t r).r = (yJ t r).v := by simp only [yJ]; ring
  have g1 : (gasJ t).r = 0 := rfl
  have g2 : (gasJ t).rr = 0 := rfl
  constructor
  · rw [← dpdrh_eq h1 h2.le hr w5]
    have := base_rr (t := t) (B := bJ t) (C := bbJ t) hr.ne' (sub_pos.2 hs.hy).ne' e1 rfl
    rw [← this] at w3
    simp only [dpdrh, helm, add_r, add_rr, g1, g2, baseJ]
    linarith
  · have : press t r = r * (rg * t * ((1 + al * (yJ t r).v + be * (yJ t r).v * (yJ t r).v)
      / (1 - (yJ t r).v) ^ 3 + 4 * (yJ t r).v * ((bbJ t).v / (bJ t).v - ga)))
      + r * r * (resJ t r).r := by
      have := base_r (c := (bbJ t).v / (bJ t).v - ga) (a := al) (b := be) hr.ne'
        (sub_pos.2 hs.hy).ne' e1
      rw [← this]
      simp only [press, helm, add_r, g1, baseJ, timesRT, baseZ]
      ring
    rw [this]
    exact w4

/-- The hypotheses of the theorems on the reported properties are met: at every temperature in the
range there are a density function and a pressure to which they apply. -/
theorem C79_instance {t : ℝ} (h1 : 810 < t) (h2 : t < 5000) : ∃ ρ p, p < 10000 ∧ Solves ρ t p
    ∧ deriv (press t) (ρ (t, p)) ≠ 0 ∧ Consistent (fun t p => withH t (water ρ t p)) t p := by
  have hlt : ∀ᶠ r in 𝓝[>] (0 : ℝ), r < 4 := nhdsWithin_le_nhds (gt_mem_nhds (by norm_num))
  obtain ⟨r, ⟨hd, hp⟩, h4, h3⟩ := ((C79_gas h1 h2).and (hlt.and self_mem_nhdsWithin)).exists
  obtain ⟨ρ, e, hs⟩ := C79_density_exists h1 h2 h3 h4 hd.ne'
  have hd' : deriv (press t) (ρ (t, press t r)) ≠ 0 := by rw [e]; exact hd.ne'
  have hp' : press t r < 10000 := by linarith [(abs_lt.1 hp).2]
  exact ⟨ρ, press t r, hp', hs, hd', (C79_water_low h1 h2 hp' hs hd').1⟩

end Verif.Thermo.Water
