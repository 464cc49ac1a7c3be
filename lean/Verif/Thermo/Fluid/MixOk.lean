import Verif.Thermo.Fluid.Mix

/-!
# The derivatives written out in the mixture's driver

Along any differentiable path of the two amounts and the total volume, at one mole, the derivatives the code
writes out are the derivatives of the compressibility factor and of the fugacity coefficients.
-/

open Filter Topology

namespace Verif.Thermo.Fluid

/-- The values of the polynomials for the amounts `x`, `y` of the two species. -/
noncomputable def Q.mol (q : Q) (x y : ℝ) : Loc := q.at (x / (x + y)) (y / (x + y))

lemma Q.mol_one (q : Q) {x y : ℝ} (h : x + y = 1) : q.mol x y = q.at x y := by
  simp only [Q.mol, h, div_one]

section

variable {B C E F K F' A G G' U : ℝ → ℝ} {b c e f k f' a g g' u s κ : ℝ}

lemma xp_path (hG : HasDerivAt G g s) (hU : HasDerivAt U u s) :
    HasDerivAt (fun s => Real.exp (-G s * U s ^ 2))
      ((-g * U s ^ 2 - 2 * G s * U s * u) * Real.exp (-G s * U s ^ 2)) s := by
  refine (hG.neg.mul (hU.pow 2)).exp.congr_deriv ?_
  simp only [Pi.neg_apply, Pi.mul_apply, Pi.pow_apply]
  push_cast
  ring

lemma z_path (hB : HasDerivAt B b s) (hC : HasDerivAt C c s) (hE : HasDerivAt E e s) (hK : HasDerivAt K k s)
    (hF : HasDerivAt F f s) (hA : HasDerivAt A a s) (hG : HasDerivAt G g s) (hU : HasDerivAt U u s) :
    HasDerivAt (fun s => 1 + B s * U s + C s * U s ^ 2 + E s * U s ^ 4 + K s * U s ^ 5
      + F s * U s ^ 2 * (A s + G s * U s ^ 2) * Real.exp (-G s * U s ^ 2))
      (b * U s + B s * u + (c * U s ^ 2 + 2 * C s * U s * u) + (e * U s ^ 4 + 4 * E s * U s ^ 3 * u)
        + (k * U s ^ 5 + 5 * K s * U s ^ 4 * u)
        + ((f * U s ^ 2 + 2 * F s * U s * u) * (A s + G s * U s ^ 2)
          + F s * U s ^ 2 * (a + g * U s ^ 2 + 2 * G s * U s * u)
          + F s * U s ^ 2 * (A s + G s * U s ^ 2) * (-g * U s ^ 2 - 2 * G s * U s * u))
          * Real.exp (-G s * U s ^ 2)) s := by
  have h := ((((((hasDerivAt_const s (1 : ℝ)).add (hB.mul hU)).add (hC.mul (hU.pow 2))).add
    (hE.mul (hU.pow 4))).add (hK.mul (hU.pow 5))).add (((hF.mul (hU.pow 2)).mul (hA.add
    (hG.mul (hU.pow 2)))).mul (xp_path hG hU)))
  refine h.congr_deriv ?_
  simp only [Pi.add_apply, Pi.mul_apply, Pi.pow_apply]
  push_cast
  ring

lemma tail_path (hB : HasDerivAt B b s) (hC : HasDerivAt C c s) (hE : HasDerivAt E e s)
    (hK : HasDerivAt K k s) (hF : HasDerivAt F f s) (hF' : HasDerivAt F' f' s) (hA : HasDerivAt A a s)
    (hG : HasDerivAt G g s) (hG' : HasDerivAt G' g' s) (hU : HasDerivAt U u s) (h0 : G s ≠ 0) :
    HasDerivAt (fun s => B s * U s + C s / 2 * U s ^ 2 + E s / 4 * U s ^ 4 + K s / 5 * U s ^ 5
        + ((F' s * A s + κ * F s) / 2 / G s) * (1 - Real.exp (-G s * U s ^ 2))
        + ((F' s * G s + G' s * F s - F s * A s * (G' s - G s)) / 2 / G s / G s)
          * (1 - (G s * U s ^ 2 + 1) * Real.exp (-G s * U s ^ 2))
        + ((G' s - G s) * F s / 2 / G s / G s)
          * (-2 + (G s * G s * U s ^ 4 + 2 * G s * U s ^ 2 + 2) * Real.exp (-G s * U s ^ 2)))
      (let H1 := (F' s * A s + κ * F s) / 2 / G s
       let H2 := Real.exp (-G s * U s ^ 2)
       let H3 := (F' s * G s + G' s * F s - F s * A s * (G' s - G s)) / 2 / G s / G s
       let H4 := G s * U s ^ 2 + 1
       let H5 := (G' s - G s) * F s / 2 / G s / G s
       let H6 := G s * G s * U s ^ 4 + 2 * G s * U s ^ 2 + 2
       let dH1 := (f' * A s + F' s * a + κ * f) / 2 / G s - (F' s * A s + κ * F s) * g / 2 / G s / G s
       let dH2 := (-g * U s ^ 2 - 2 * G s * U s * u) * H2
       let dH3 := (f' * G s + F' s * g) / 2 / G s / G s + (g' * F s + G' s * f) / 2 / G s / G s
         - (f * A s * (G' s - G s) + F s * a * (G' s - G s) + F s * A s * (g' - g)) / 2 / G s / G s
         - 2 * (F' s * G s + G' s * F s - F s * A s * (G' s - G s)) * g / 2 / G s / G s / G s
       let dH4 := g * U s ^ 2 + 2 * G s * U s * u
       let dH5 := (g' - g) * F s / 2 / G s / G s + (G' s - G s) * f / 2 / G s / G s
         - 2 * (G' s - G s) * F s * g / 2 / G s / G s / G s
       let dH6 := 2 * G s * g * U s ^ 4 + 4 * G s * G s * U s ^ 3 * u + 2 * g * U s ^ 2 + 4 * G s * U s * u
       b * U s + B s * u + (c / 2 * U s ^ 2 + C s * U s * u) + (e / 4 * U s ^ 4 + E s * U s ^ 3 * u)
        + (k / 5 * U s ^ 5 + K s * U s ^ 4 * u)
        + (dH1 * (1 - H2) - H1 * dH2) + (dH3 * (1 - H4 * H2) - H3 * (dH4 * H2 + H4 * dH2))
        + (dH5 * (H6 * H2 - 2) + H5 * (dH6 * H2 + H6 * dH2))) s := by
  have hx := xp_path hG hU
  have g1 : HasDerivAt (fun s => (G s)⁻¹) (-g / G s ^ 2) s := hG.inv h0
  have H1 : HasDerivAt (fun s => (F' s * A s + κ * F s) / 2 / G s)
      ((f' * A s + F' s * a + κ * f) / 2 / G s - (F' s * A s + κ * F s) * g / 2 / G s / G s) s := by
    refine ((((hF'.mul hA).add (hF.const_mul κ)).div_const 2).mul g1).congr_deriv ?_
    simp only [Pi.add_apply, Pi.mul_apply]
    ring
  have H3 : HasDerivAt (fun s => (F' s * G s + G' s * F s - F s * A s * (G' s - G s)) / 2 / G s / G s)
      ((f' * G s + F' s * g) / 2 / G s / G s + (g' * F s + G' s * f) / 2 / G s / G s
         - (f * A s * (G' s - G s) + F s * a * (G' s - G s) + F s * A s * (g' - g)) / 2 / G s / G s
         - 2 * (F' s * G s + G' s * F s - F s * A s * (G' s - G s)) * g / 2 / G s / G s / G s) s := by
    refine ((((((hF'.mul hG).add (hG'.mul hF)).sub ((hF.mul hA).mul (hG'.sub hG))).div_const 2).mul
      g1).mul g1).congr_deriv ?_
    simp only [Pi.add_apply, Pi.mul_apply, Pi.sub_apply]
    ring
  have H5 : HasDerivAt (fun s => (G' s - G s) * F s / 2 / G s / G s)
      ((g' - g) * F s / 2 / G s / G s + (G' s - G s) * f / 2 / G s / G s
         - 2 * (G' s - G s) * F s * g / 2 / G s / G s / G s) s := by
    refine (((((hG'.sub hG).mul hF).div_const 2).mul g1).mul g1).congr_deriv ?_
    simp only [Pi.mul_apply, Pi.sub_apply]
    ring
  have H4 : HasDerivAt (fun s => G s * U s ^ 2 + 1) (g * U s ^ 2 + 2 * G s * U s * u) s := by
    refine ((hG.mul (hU.pow 2)).add_const 1).congr_deriv ?_
    simp only [Pi.pow_apply]; push_cast; ring
  have H6 : HasDerivAt (fun s => G s * G s * U s ^ 4 + 2 * G s * U s ^ 2 + 2)
      (2 * G s * g * U s ^ 4 + 4 * G s * G s * U s ^ 3 * u + 2 * g * U s ^ 2 + 4 * G s * U s * u) s := by
    refine ((((hG.mul hG).mul (hU.pow 4)).add ((hG.const_mul 2).mul (hU.pow 2))).add_const 2).congr_deriv ?_
    simp only [Pi.pow_apply, Pi.mul_apply]; push_cast; ring
  have P1 : HasDerivAt (fun s => B s * U s + C s / 2 * U s ^ 2 + E s / 4 * U s ^ 4 + K s / 5 * U s ^ 5)
      (b * U s + B s * u + (c / 2 * U s ^ 2 + C s * U s * u) + (e / 4 * U s ^ 4 + E s * U s ^ 3 * u)
        + (k / 5 * U s ^ 5 + K s * U s ^ 4 * u)) s := by
    refine ((((hB.mul hU).add ((hC.div_const 2).mul (hU.pow 2))).add ((hE.div_const 4).mul (hU.pow 4))).add
      ((hK.div_const 5).mul (hU.pow 5))).congr_deriv ?_
    simp only [Pi.pow_apply]; push_cast; ring
  have P2 := H1.mul (hx.const_sub 1)
  have P3 := H3.mul ((H4.mul hx).const_sub 1)
  have P4 := H5.mul ((H6.mul hx).const_add (-2))
  refine (((P1.add P2).add P3).add P4).congr_deriv ?_
  simp only [Pi.mul_apply]
  ring

end

section

variable {X Y V : ℝ → ℝ} {x' y' w' s : ℝ} {q : Q}

lemma u_path (hX : HasDerivAt X x' s) (hY : HasDerivAt Y y' s) (hV : HasDerivAt V w' s) (h1 : X s + Y s = 1)
    (h0 : V s ≠ 0) : HasDerivAt (fun s => (V s / (X s + Y s))⁻¹) ((V s)⁻¹ * (x' + y') - (V s)⁻¹ ^ 2 * w') s := by
  have h := (hX.add hY).div hV h0
  refine (h.congr_deriv ?_).congr_of_eventuallyEq (Eventually.of_forall fun s => ?_)
  · simp only [Pi.add_apply, h1]; field_simp
  · simp only [inv_div, Pi.add_apply, Pi.div_apply]

lemma loc_z (l : Loc) (v : ℝ) : l.z v = 1 + l.b * v⁻¹ + l.c * v⁻¹ ^ 2 + l.d * v⁻¹ ^ 4 + l.e * v⁻¹ ^ 5
    + l.f * v⁻¹ ^ 2 * (l.be + l.g * v⁻¹ ^ 2) * Real.exp (-l.g * v⁻¹ ^ 2) := by
  simp only [Loc.z, xp, div_eq_mul_inv, inv_pow]

/-- The compressibility factor along a path. -/
lemma mix_z_path (hX : HasDerivAt X x' s) (hY : HasDerivAt Y y' s) (hV : HasDerivAt V w' s)
    (h1 : X s + Y s = 1) (h0 : V s ≠ 0) :
    HasDerivAt (fun s => (q.mol (X s) (Y s)).z (V s / (X s + Y s)))
      ((q.at (X s) (Y s)).zn .h2o (V s) * x' + (q.at (X s) (Y s)).zn .co2 (V s) * y'
        + (q.at (X s) (Y s)).zv (V s) * w') s := by
  have h := z_path (form_path q.b 2 hX hY h1) (form_path q.c 3 hX hY h1) (form_path q.d 5 hX hY h1)
    (form_path q.e 6 hX hY h1) (form_path q.f 2 hX hY h1) (form_path q.be 1 hX hY h1)
    (form_path q.g 3 hX hY h1) (u_path hX hY hV h1 h0)
  simp only [loc_z]
  refine h.congr_deriv ?_
  simp only [h1, div_one, Loc.zn, Loc.zv, Loc.z, Q.at, xp, div_eq_mul_inv, inv_pow]
  push_cast
  ring

/-- `lnv` before the quotients by `gammav` cancel. -/
lemma lnv_raw (l : Loc) (i : Species) (v : ℝ) (hg : l.g ≠ 0) :
    l.lnv i v = -l.zv v / l.z v - l.b' i / v ^ 2 - l.c' i / v ^ 3 - l.d' i / v ^ 5 - l.e' i / v ^ 6
      + (l.f' i * l.be + l.be' i * l.f) / 2 / l.g * (-2 * l.g * v⁻¹ ^ 3 * xp l.g v)
      - (l.f' i * l.g + l.g' i * l.f - l.f * l.be * (l.g' i - l.g)) / 2 / l.g / l.g
        * ((-2 * l.g * v⁻¹ ^ 3) * xp l.g v + (l.g * v⁻¹ ^ 2 + 1) * (2 * l.g * v⁻¹ ^ 3 * xp l.g v))
      + ((l.g' i - l.g) * l.f / 2 / l.g / l.g)
        * ((-4 * l.g * l.g * v⁻¹ ^ 5 - 4 * l.g * v⁻¹ ^ 3) * xp l.g v
          + (l.g * l.g * v⁻¹ ^ 4 + 2 * l.g * v⁻¹ ^ 2 + 2) * (2 * l.g * v⁻¹ ^ 3 * xp l.g v)) := by
  simp only [Loc.lnv]
  generalize xp l.g v = x
  by_cases hv : v = 0
  · simp [hv]
  · field_simp
    ring

/-- The fugacity coefficients along a path. -/
lemma mix_ln_path (i : Species) (hX : HasDerivAt X x' s) (hY : HasDerivAt Y y' s) (hV : HasDerivAt V w' s)
    (h1 : X s + Y s = 1) (h0 : V s ≠ 0) (hz : (q.at (X s) (Y s)).z (V s) ≠ 0)
    (hg : (q.at (X s) (Y s)).g ≠ 0) :
    HasDerivAt (fun s => (q.mol (X s) (Y s)).ln i (V s / (X s + Y s)))
      ((q.at (X s) (Y s)).lnn i .h2o (V s) * x' + (q.at (X s) (Y s)).lnn i .co2 (V s) * y'
        + (q.at (X s) (Y s)).lnv i (V s) * w') s := by
  have hzp := mix_z_path (q := q) hX hY hV h1 h0
  have hz' : (fun s => (q.mol (X s) (Y s)).z (V s / (X s + Y s))) s ≠ 0 := by
    simpa [q.mol_one h1, h1] using hz
  have hlog := (hzp.log hz').neg
  have hg' : (fun s => form 3 q.g (X s / (X s + Y s)) (Y s / (X s + Y s))) s ≠ 0 := by
    simpa [h1, Q.at] using hg
  have h := tail_path (κ := form' 1 q.be i (X s) (Y s)) (form_path' q.b 2 i hX hY h1)
    (form_path' q.c 3 i hX hY h1) (form_path' q.d 5 i hX hY h1)
    (form_path' q.e 6 i hX hY h1) (form_path q.f 2 hX hY h1) (form_path' q.f 2 i hX hY h1)
    (form_path q.be 1 hX hY h1) (form_path q.g 3 hX hY h1) (form_path' q.g 3 i hX hY h1)
    (u_path hX hY hV h1 h0) hg'
  refine ((hlog.add h).congr_deriv ?_).congr_of_eventuallyEq (Eventually.of_forall fun s' => ?_)
  · rw [lnv_raw _ _ _ hg]
    simp only [q.mol_one h1, h1, div_one, Loc.lnn]
    simp only [Q.at, xp, div_eq_mul_inv, inv_pow]
    generalize Real.exp (-form 3 q.g (X s) (Y s) * (V s ^ 2)⁻¹) = x
    push_cast
    ring
  · simp only [Loc.ln, Q.mol, Q.at, xp, Pi.add_apply, Pi.neg_apply]
    have hbe : ∀ x y : ℝ, form' 1 q.be i x y = form' 1 q.be i (X s) (Y s) := fun x y => by
      simp [form', form]
    rw [hbe]
    simp only [div_eq_mul_inv, inv_pow]
    ring

end

end Verif.Thermo.Fluid
