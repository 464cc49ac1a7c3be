import Verif.Thermo.Miscibility
import Verif.Thermo.Minerals.Leucite

/-!
# C85: miscibility of hornblende

Two independent exchanges, magnesium for iron on four sites and aluminium for ferric iron on one. Simplification:
hornblende.c does not clamp its fractions, so at an empty site C computes `0 * log 0`, not a number; here it is zero.
-/

open Set

namespace Magma.Thermo.Mixing

open Magma.Thermo.Extensive Magma.Thermo.Compo

noncomputable section

/-- A three-component phase as `checkForCoexistingSolids` calls it at fixed temperature and pressure: `gmix*`,
`con*` (hornblende.c 284, 368, 373-374) and `test*` (hornblende.c 191-194: each variable between 0 and 1). Moles and
compositions are functions on all indices. -/
def solution3 (M : Mix 2) (dep : Fin 3) (t p : ℝ) : Engine.Unmix.Mix where
  na := 3
  conv m := fun i => if h : i < 2 then toR dep (fun k : Fin 3 => m k) ⟨i, h⟩ else 0
  frac r i := if i = (dep : ℕ) then 1 - r 0 - r 1 else if i < dep then r i else r (i - 1)
  dxdr _ i j := if i = (dep : ℕ) then -1 else if (if i < dep then i else i - 1) = j then 1 else 0
  gmix r := M.g t p fun i => r i
  dgmix r j := if h : j < 2 then M.gr t p (fun i => r i) ⟨j, h⟩ else 0
  eval r := open Classical in if (0 ≤ r 0 ∧ r 0 ≤ 1) ∧ 0 ≤ r 1 ∧ r 1 ≤ 1 then some r else none

lemma line_convex {f : ℝ → ℝ} (hf : ConvexOn ℝ (Icc 0 1) f) {b y : ℝ} (hb : b ∈ Icc (0 : ℝ) 1)
    (hy : y ∈ Icc (0 : ℝ) 1) : ConvexOn ℝ (Icc 0 1) fun s => f (b + s * (y - b)) := by
  have hin : ∀ s ∈ Icc (0 : ℝ) 1, b + s * (y - b) ∈ Icc (0 : ℝ) 1 := fun s hs => by
    constructor
    · nlinarith [hs.1, hs.2, hb.1, hy.1, mul_nonneg hs.1 hy.1, mul_nonneg (sub_nonneg.2 hs.2) hb.1]
    · nlinarith [hs.1, hs.2, hb.2, hy.2, mul_nonneg hs.1 (sub_nonneg.2 hy.2),
        mul_nonneg (sub_nonneg.2 hs.2) (sub_nonneg.2 hb.2)]
  refine ⟨convex_Icc 0 1, fun s hs u hu a c ha hc hac => ?_⟩
  have := hf.2 (hin s hs) (hin u hu) ha hc hac
  simp only [smul_eq_mul] at this ⊢
  rwa [show b + (a * s + c * u) * (y - b) = a * (b + s * (y - b)) + c * (b + u * (y - b)) by
    linear_combination (-b) * hac]

lemma const_convex {t W : ℝ} (h : 0 ≤ R * t - W / 2) (hW : 0 ≤ W) :
    ConvexOn ℝ (Icc 0 1) fun x => energy t (fun _ _ => W) x (1 - x) := by
  refine convex (h1 := fun x => W * (1 - 2 * x)) (h2 := fun _ => -2 * W) (fun x => ?_) (fun x => ?_) fun x x0 x1 => ?_
  · have := ((hasDerivAt_id x).sub (hasDerivAt_pow 2 x)).const_mul W
    refine (this.congr_deriv ?_).congr_of_eventuallyEq (Filter.Eventually.of_forall fun y => ?_)
    · push_cast; ring
    · simp; ring
  · have := (((hasDerivAt_id x).const_mul 2).const_sub 1).const_mul W
    refine this.congr_deriv ?_
    ring
  · nlinarith [mul_nonneg hW (sq_nonneg (x - 1 / 2))]

lemma hornblende_g (t p : ℝ) (r : Fin 2 → ℝ) : Hornblende.mix.g t p r =
    energy (4 * t) (fun _ _ => Hornblende.WFEMG) (r 0) (1 - r 0) + energy t (fun _ _ => Hornblende.WFEAL) (r 1) (1 - r 1) := by
  show Hornblende.G t p (r 0) (r 1) (1 - r 0) (r 0) (1 - r 1) (r 1) = _
  simp only [Hornblende.G, Hornblende.H, Hornblende.S, Hornblende.V, Hornblende.G0, Hornblende.GX, Hornblende.GY,
    Hornblende.GXX, Hornblende.GYY, Hornblende.GXY, Hornblende.DGR, energy]
  ring

/-- **C85.**  Hornblende is one solution from 1010 K up, at every composition with both exchanges begun and neither
complete to within `DBL_EPSILON`. -/
theorem C85_hornblende {t p : ℝ} (ht : 1010 ≤ t) (h0 : ℕ → ℝ) (N : ℕ) (m : ℕ → ℝ) (hm : 0 < m 0 + m 1 + m 2)
    (m1 : eps * (m 0 + m 1 + m 2) < m 1) (m1' : eps * (m 0 + m 1 + m 2) < m 0 + m 2)
    (m2 : eps * (m 0 + m 1 + m 2) < m 2) (m2' : eps * (m 0 + m 1 + m 2) < m 0 + m 1) :
    Engine.Unmix.split (solution3 Hornblende.mix Hornblende.dep t p) h0 N m = none := by
  obtain ⟨b, hb⟩ : ∃ b, b = Engine.Unmix.ref (solution3 Hornblende.mix Hornblende.dep t p) m := ⟨_, rfl⟩
  have ht' : total (fun k : Fin 3 => m k) = m 0 + m 1 + m 2 := by simp [total, Fin.sum_univ_three]
  have b0 : b 0 = m 1 / (m 0 + m 1 + m 2) := by
    rw [hb]
    simp [Engine.Unmix.ref, solution3, toR, ht', hm.ne', Hornblende.dep]
  have b1 : b 1 = m 2 / (m 0 + m 1 + m 2) := by
    rw [hb]
    simp [Engine.Unmix.ref, solution3, toR, ht', hm.ne', Hornblende.dep]
  have e0 := eps_pos
  have hb0 : eps < b 0 ∧ b 0 < 1 - eps := by
    rw [b0, lt_div_iff₀ hm, div_lt_iff₀ hm]
    constructor <;> linarith
  have hb1 : eps < b 1 ∧ b 1 < 1 - eps := by
    rw [b1, lt_div_iff₀ hm, div_lt_iff₀ hm]
    constructor <;> linarith
  have hI : Interior Hornblende.raw fun i : Fin 2 => b i := by
    intro k
    fin_cases k
    · show 1 - b 0 > eps; linarith
    · show b 0 > eps; linarith
    · show 1 - b 1 > eps; linarith
    · show b 1 > eps; linarith
  have hev : ∀ r y, (solution3 Hornblende.mix Hornblende.dep t p).eval r = some y →
      y 0 ∈ Icc (0 : ℝ) 1 ∧ y 1 ∈ Icc (0 : ℝ) 1 := by
    intro r y h
    simp only [solution3] at h
    split_ifs at h with hc
    injection h with h
    rw [← h]; exact hc
  apply Engine.Unmix.C74_convex
  · intro r y h
    obtain ⟨k0, k1⟩ := hev r y h
    rw [← hb]
    have c0 := const_convex (t := 4 * t) (W := Hornblende.WFEMG)
      (by unfold R Hornblende.WFEMG; linarith) (by unfold Hornblende.WFEMG; norm_num)
    have c1 := const_convex (t := t) (W := Hornblende.WFEAL)
      (by unfold R Hornblende.WFEAL; linarith) (by unfold Hornblende.WFEAL; norm_num)
    have := (line_convex c0 (b := b 0) ⟨by linarith, by linarith⟩ k0).add
      (line_convex c1 (b := b 1) ⟨by linarith, by linarith⟩ k1)
    refine this.congr fun s _ => ?_
    simp only [solution3, Pi.add_apply]
    rw [hornblende_g]
    simp
  · intro r y h
    rw [← hb]
    have hg := Hornblende.consistent.g_r t p _ hI
    unfold Grad at hg
    have hc : HasDerivAt (fun s : ℝ => fun i : Fin 2 => b i + s * (y i - b i)) (fun i : Fin 2 => y i - b i) 0 := by
      refine hasDerivAt_pi.2 fun i => ?_
      simpa using ((hasDerivAt_id (0 : ℝ)).mul_const (y i - b i)).const_add (b i)
    refine (HasDerivAt.congr_deriv (HasFDerivAt.comp_hasDerivAt_of_eq (0 : ℝ) hg hc (by funext i; simp)) ?_).hasDerivWithinAt
    simp [solution3, Finset.sum_range_succ, Fin.sum_univ_two]

/-- **C85.**  Up to 1009 K hornblende with equal parts of aluminium and ferric iron loses energy by separating. -/
theorem C85_hornblende_gap {t p x : ℝ} (ht : 0 < t) (h : t ≤ 1009) (x0 : eps < x) (x1 : eps < 1 - x) :
    ∃ s, 0 < s ∧ s < 1 / 2 ∧ ∀ h, 0 < h → h ≤ s →
      (Hornblende.mix.g t p ![x, 1 / 2 - h] + Hornblende.mix.g t p ![x, 1 / 2 + h]) / 2 < Hornblende.mix.g t p ![x, 1 / 2] := by
  have hI : ∀ y, eps < y → y < 1 - eps → Interior Hornblende.raw ![x, y] := by
    intro y a b k
    fin_cases k
    · show 1 - x > eps; linarith
    · show x > eps; linarith
    · show 1 - y > eps; linarith
    · show y > eps; linarith
  have hc : ∀ y, HasDerivAt (fun y : ℝ => ![x, y]) ![0, 1] y := fun y => by
    refine hasDerivAt_pi.2 fun i => ?_
    fin_cases i
    · exact hasDerivAt_const y x
    · exact hasDerivAt_id y
  have d1 : ∀ y, eps < y → y < 1 - eps →
      HasDerivAt (fun y => Hornblende.mix.g t p ![x, y]) (Hornblende.mix.gr t p ![x, y] 1) y := fun y a b => by
    have hg := Hornblende.consistent.g_r t p _ (hI y a b)
    unfold Grad at hg
    exact (HasFDerivAt.comp_hasDerivAt_of_eq y hg (hc y) rfl).congr_deriv (by simp [Fin.sum_univ_two])
  have ee : eps < 1 / 2 := eps_lt
  have d2 : HasDerivAt (fun y => Hornblende.mix.gr t p ![x, y] 1) (Hornblende.mix.grr t p ![x, 1 / 2] 1 1) (1 / 2) := by
    have hg := Hornblende.consistent.g_rr t p _ (hI (1 / 2) (by linarith) (by linarith)) 1
    unfold Grad at hg
    exact (HasFDerivAt.comp_hasDerivAt_of_eq (1 / 2 : ℝ) hg (hc _) rfl).congr_deriv (by simp [Fin.sum_univ_two])
  obtain ⟨s, s0, a, -, hs⟩ := dip (x := 1 / 2) (lo := eps) (hi := 1 - eps) (by linarith) (by linarith) d1 d2 (by
    show R * t * (1 / (1 / 2) + 1 / (1 - 1 / 2)) + 2 * Hornblende.GYY < 0
    unfold Hornblende.GYY Hornblende.WFEAL R
    norm_num
    linarith)
  exact ⟨s, s0, by linarith [eps_pos], hs⟩

/-- Equal parts of the three end members at 1200 K and 1 kbar. -/
example (h0 : ℕ → ℝ) (N : ℕ) :
    Engine.Unmix.split (solution3 Hornblende.mix Hornblende.dep 1200 1000) h0 N (fun _ => 1) = none :=
  C85_hornblende (by norm_num) h0 N _ (by norm_num) (by unfold eps; norm_num) (by unfold eps; norm_num)
    (by unfold eps; norm_num) (by unfold eps; norm_num)

end

end Magma.Thermo.Mixing
