import Verif.Engine.Unmix
import Mathlib.Analysis.Convex.Deriv
import Mathlib.Analysis.Calculus.Deriv.Slope

/-!
Property C74: unmixing of a solution.
-/

namespace Magma.Engine.Unmix

open Finset Magma.Num Magma.Num.Householder Magma.Num.Constraint Magma.Engine.Saturation

variable {M : Mix} {h0 : ℕ → ℝ} {N : ℕ} {m r : ℕ → ℝ}

/-! ### The geometry of the reduced variables -/

theorem small_eq : small = (1 / 8192) ^ 2 := by
  unfold small eps
  rw [show (1 : ℝ) / 2 ^ 52 = ((1 / 8192) ^ 2) ^ 2 by norm_num, Real.sqrt_sq (by positivity)]

theorem small_pos : 0 < small := by rw [small_eq]; norm_num

theorem ext_sub {n : ℕ} (z w : Fin n → ℝ) (ρ : ℝ) (h : ∀ i, |z i - w i| ≤ ρ) (i : ℕ) (hi : i < n) :
    |ext z i - ext w i| ≤ ρ := by
  unfold ext
  rw [dif_pos hi, dif_pos hi]
  exact h _

/-- Moving the free variables by at most `ρ` moves the composition by at most `ρ` times their number, up to rounding. -/
theorem point_sub_le (M : Mix) (m h0 b0 : ℕ → ℝ) (z x : ℕ → ℝ) (ρ : ℝ) (hρ : 0 ≤ ρ) (hl : 0 < (live M.na (zero m)).length)
    (hd : ∀ i < nz M m, |z i - x i| ≤ ρ) (i : ℕ) (hi : i < M.na - 1) :
    |(unFrame M m h0 b0).point z i - (unFrame M m h0 b0).point x i| ≤ M.na * ρ + 20 * eps := by
  set f := unFrame M m h0 b0 with hf
  have hlen := nulls_length M.na (zero m)
  have he : 0 ≤ eps := by unfold eps; positivity
  have hne : f.ne = (nulls M.na (zero m)).length := rfl
  have hnr : f.nr = M.na - 1 := rfl
  unfold nz at hd
  unfold Frame.point
  split_ifs with h1
  · rw [hne] at h1
    have := hd i (by omega)
    have h1' : (1 : ℝ) ≤ M.na := by exact_mod_cast (by omega : 1 ≤ M.na)
    nlinarith
  · have hF : f.F = decomp f.ne f.nr f.ne (fun i => M.dxdr (ref M m) ((nulls M.na (zero m)).getD i 0), h0) := rfl
    set u := fun i => if i < f.ne then f.y i else z (i - f.ne)
    set v := fun i => if i < f.ne then f.y i else x (i - f.ne)
    have key : |back f.F.1 f.F.2 f.nr f.ne u i - back f.F.1 f.F.2 f.nr f.ne v i| ≤ (f.nr - f.ne : ℕ) * ρ := by
      rw [hF]
      refine back_sub_le f.ne f.nr _ (by omega) (by omega) u v ρ ?_ ?_ i (by omega)
      · intro i hi; simp only [u, v, if_pos hi]
      · intro i hi1 hi2
        simp only [u, v, if_neg (not_lt.mpr hi1)]
        exact hd (i - f.ne) (by omega)
    have hcnt : ((f.nr - f.ne : ℕ) : ℝ) ≤ M.na := by exact_mod_cast (by omega)
    have c1 := clean_le (back f.F.1 f.F.2 f.nr f.ne u) i
    have c2 := clean_le (back f.F.1 f.F.2 f.nr f.ne v) i
    have : ((f.nr - f.ne : ℕ) : ℝ) * ρ ≤ M.na * ρ := by gcongr
    rw [abs_le] at c1 c2 key ⊢
    constructor <;> linarith [c1.1, c1.2, c2.1, c2.2, key.1, key.2]

/-- The mole fraction of an absent end member stays zero, up to rounding, along the whole search. -/
theorem point_excluded (M : Mix) (m h0 b0 z : ℕ → ℝ) (D : ℕ → ℕ → ℝ) (hD : ∀ r, M.dxdr r = D)
    (haff : ∀ r r' i, i < M.na → M.frac r i - M.frac r' i = ∑ j ∈ range (M.na - 1), D i j * (r j - r' j))
    (i : ℕ) (hi : i < M.na) (hz : m i = 0) (hb0 : M.frac b0 i = 0) (hl : 0 < (live M.na (zero m)).length) :
    |M.frac ((unFrame M m h0 b0).point z) i| ≤ 10 * eps * (M.na * ∑ j ∈ range (M.na - 1), |D i j|) := by
  set f := unFrame M m h0 b0 with hf
  have hlen := nulls_length M.na (zero m)
  have hne : f.ne = (nulls M.na (zero m)).length := rfl
  have hnr : f.nr = M.na - 1 := rfl
  have hmem : i ∈ nulls M.na (zero m) := by unfold nulls Unmix.zero; simp [hi, hz]
  obtain ⟨k, hk, hki⟩ := List.getElem_of_mem hmem
  have hki' : (nulls M.na (zero m)).getD k 0 = i := by rw [List.getD_eq_getElem _ _ hk, hki]
  have hF : f.F = decomp f.ne f.nr f.ne (fun i => M.dxdr (ref M m) ((nulls M.na (zero m)).getD i 0), h0) := rfl
  have hy : f.y = clean (chain f.F.1 f.F.2 f.nr f.ne b0) := rfl
  have he : 0 ≤ eps := by unfold eps; positivity
  have hnr0 : 0 < f.nr := by omega
  have e1 : M.frac (f.point z) i = ∑ j ∈ range f.nr, D i j * (f.point z j - b0 j) := by
    have h1 := haff (f.point z) b0 i hi
    rw [hb0, sub_zero] at h1
    rw [h1, hnr]
  rw [e1]
  unfold Frame.point
  rw [if_neg (by omega)]
  set w' := fun j => if j < f.ne then f.y j else z (j - f.ne) with hw'
  set p := back f.F.1 f.F.2 f.nr f.ne w' with hp
  have row : (fun j => D i j) = (fun i => M.dxdr (ref M m) ((nulls M.na (zero m)).getD i 0)) k := by
    simp only [hki', hD]
  have hcr := chain_row f.ne f.nr (fun i => M.dxdr (ref M m) ((nulls M.na (zero m)).getD i 0), h0) k (by omega) (by omega)
  simp only at hcr
  rw [← hF] at hcr
  set c := chain f.F.1 f.F.2 f.nr f.ne (fun j => D i j) with hc
  have hc0 : ∀ j, k < j → j < f.nr → c j = 0 := by
    intro j h1 h2
    rw [hc, row]; exact hcr.2 j h1 h2
  have hcle : ∀ j < f.nr, |c j| ≤ ∑ l ∈ range f.nr, |D i l| := by
    intro j hj
    rw [hc, hF]
    exact chain_le f.ne f.nr _ hnr0 _ j hj
  have d1 : dot f.nr (fun j => D i j) p = dot f.nr c w' := by rw [hp, hc]; exact dot_back _ _ _ hnr0 _ _ _
  have d2 : dot f.nr (fun j => D i j) b0 = dot f.nr c (chain f.F.1 f.F.2 f.nr f.ne b0) := by
    rw [hc, hF]; exact (Reduced.dot_chain f.ne f.nr _ hnr0 _ _).symm
  have split : ∑ j ∈ range f.nr, D i j * (clean p j - b0 j)
      = ∑ j ∈ range f.nr, D i j * (clean p j - p j) + ∑ j ∈ range f.nr, c j * (w' j - chain f.F.1 f.F.2 f.nr f.ne b0 j) := by
    have : ∑ j ∈ range f.nr, c j * (w' j - chain f.F.1 f.F.2 f.nr f.ne b0 j)
        = dot f.nr (fun j => D i j) p - dot f.nr (fun j => D i j) b0 := by
      rw [d1, d2]; unfold dot; rw [← sum_sub_distrib]; exact sum_congr rfl fun j _ => by ring
    rw [this]
    unfold dot
    rw [← sum_sub_distrib, ← sum_add_distrib]
    exact sum_congr rfl fun j _ => by ring
  have b1 : |∑ j ∈ range f.nr, D i j * (clean p j - p j)| ≤ 10 * eps * ∑ j ∈ range f.nr, |D i j| := by
    refine (abs_sum_le_sum_abs _ _).trans ?_
    rw [mul_sum]
    refine sum_le_sum fun j _ => ?_
    rw [abs_mul]
    nlinarith [clean_le p j, abs_nonneg (D i j)]
  have hkn : k + 1 ≤ f.nr := by omega
  have b2 : |∑ j ∈ range f.nr, c j * (w' j - chain f.F.1 f.F.2 f.nr f.ne b0 j)|
      ≤ (k + 1 : ℕ) * (10 * eps * ∑ j ∈ range f.nr, |D i j|) := by
    have : ∑ j ∈ range f.nr, c j * (w' j - chain f.F.1 f.F.2 f.nr f.ne b0 j)
        = ∑ j ∈ range (k + 1), c j * (w' j - chain f.F.1 f.F.2 f.nr f.ne b0 j) := by
      refine (sum_subset (fun j hj => mem_range.mpr (by have := mem_range.mp hj; omega)) fun j hj hj' => ?_).symm
      rw [hc0 j (by have := mem_range.not.mp hj'; omega) (mem_range.mp hj), zero_mul]
    rw [this]
    refine (abs_sum_le_sum_abs _ _).trans ?_
    calc ∑ j ∈ range (k + 1), |c j * (w' j - chain f.F.1 f.F.2 f.nr f.ne b0 j)|
        ≤ ∑ j ∈ range (k + 1), 10 * eps * ∑ j ∈ range f.nr, |D i j| := sum_le_sum fun j hj => by
          have hj' : j < f.ne := by have := mem_range.mp hj; omega
          rw [abs_mul]
          have h1 := hcle j (by omega)
          have h2 : |w' j - chain f.F.1 f.F.2 f.nr f.ne b0 j| ≤ 10 * eps := by
            simp only [hw', if_pos hj', hy]
            exact clean_le _ j
          have h3 : 0 ≤ ∑ l ∈ range f.nr, |D i l| := sum_nonneg fun _ _ => abs_nonneg _
          calc |c j| * |w' j - chain f.F.1 f.F.2 f.nr f.ne b0 j| ≤ (∑ l ∈ range f.nr, |D i l|) * (10 * eps) := by
                gcongr
            _ = _ := mul_comm _ _
      _ = _ := by rw [sum_const, card_range, nsmul_eq_mul]
  rw [split]
  refine (abs_add_le _ _).trans ?_
  have hkna : ((k + 1 : ℕ) : ℝ) + 1 ≤ M.na := by exact_mod_cast (by omega)
  have h3 : 0 ≤ 10 * eps * ∑ l ∈ range f.nr, |D i l| := by
    have : 0 ≤ ∑ l ∈ range f.nr, |D i l| := sum_nonneg fun _ _ => abs_nonneg _
    positivity
  rw [hnr] at b1 b2 h3 ⊢
  nlinarith

/-! ### What a candidate is -/

theorem candidate_spec {i : ℕ} (h : candidate M h0 N m i = some r) (hl : 0 < (live M.na (zero m)).length) :
    ∃ r' t, M.eval r' = some t ∧ height M (ref M m) t < -(small * |M.gmix (ref M m)|) ∧
      ∀ j < M.na - 1, |r j - r' j| ≤ M.na * (2 * small) + 20 * eps := by
  unfold candidate at h
  simp only at h
  split at h
  · rename_i s hs
    split_ifs at h with hlt
    injection h with h
    obtain ⟨x, hx, _, hd⟩ := Vmmin.C20_success_near _ N small_pos _ s hs
    simp only [problem, Option.map_eq_some_iff] at hx
    obtain ⟨t, ht, hh⟩ := hx
    refine ⟨_, t, ht, by rw [hh]; exact hlt, ?_⟩
    intro j hj
    rw [← h]
    refine point_sub_le M m h0 _ (ext s.b) (ext x) _ (by linarith [small_pos]) hl ?_ j hj
    intro k hk
    refine ext_sub _ _ _ (fun k => ?_) k hk
    rw [abs_sub_comm]
    exact (hd k).le
  · simp at h

theorem foldl_far (d : (ℕ → ℝ) → ℝ) (cs : List (ℕ → ℝ)) (c : ℕ → ℝ) :
    let b := cs.foldl (fun best x => if d x > d best then x else best) c
    (b = c ∨ b ∈ cs) ∧ d c ≤ d b ∧ ∀ x ∈ cs, d x ≤ d b := by
  induction cs generalizing c with
  | nil => simp
  | cons y ys ih =>
    simp only [List.foldl_cons]
    obtain ⟨h1, h2, h3⟩ := ih (if d y > d c then y else c)
    split_ifs at h1 h2 h3 ⊢ with hlt
    · refine ⟨Or.inr ?_, by linarith, ?_⟩
      · rcases h1 with h1 | h1
        · rw [h1]; exact List.mem_cons_self
        · exact List.mem_cons_of_mem _ h1
      · intro x hx
        rcases List.mem_cons.1 hx with rfl | hx
        · exact h2
        · exact h3 x hx
    · refine ⟨?_, h2, ?_⟩
      · rcases h1 with h1 | h1
        · exact Or.inl h1
        · exact Or.inr (List.mem_cons_of_mem _ h1)
      · intro x hx
        rcases List.mem_cons.1 hx with rfl | hx
        · exact le_trans (not_lt.1 hlt) h2
        · exact h3 x hx

theorem farthest_spec {d : (ℕ → ℝ) → ℝ} {cs : List (ℕ → ℝ)} :
    (∀ b, farthest d cs = some b → b ∈ cs ∧ ∀ x ∈ cs, d x ≤ d b) ∧ (farthest d cs = none ↔ cs = []) := by
  cases cs with
  | nil => simp [farthest]
  | cons c cs =>
    simp only [farthest]
    refine ⟨fun b hb => ?_, by simp⟩
    injection hb with hb
    obtain ⟨h1, h2, h3⟩ := foldl_far d cs c
    rw [hb] at h1 h2 h3
    refine ⟨?_, ?_⟩
    · rcases h1 with h1 | h1
      · rw [h1]; exact List.mem_cons_self
      · exact List.mem_cons_of_mem _ h1
    · intro x hx
      rcases List.mem_cons.1 hx with rfl | hx
      · exact h2
      · exact h3 x hx

/-- **C74** (real): what a copy is reported to unmix into is next to an admissible composition whose energy of mixing is
below the tangent plane at the composition of the copy, by more than `sqrt(eps)` of the energy. -/
theorem C74_below_tangent (h : split M h0 N m = some r) :
    ∃ r' t, M.eval r' = some t ∧
      M.gmix t < M.gmix (ref M m) + ∑ j ∈ range (M.na - 1), M.dgmix (ref M m) j * (t j - ref M m j)
        - small * |M.gmix (ref M m)| ∧
      ∀ j < M.na - 1, |r j - r' j| ≤ M.na * (2 * small) + 20 * eps := by
  obtain ⟨hm, _⟩ := farthest_spec.1 r h
  obtain ⟨i, hi, hc⟩ := List.mem_filterMap.1 hm
  obtain ⟨r', t, h1, h2, h3⟩ := candidate_spec hc (List.length_pos_of_mem hi)
  refine ⟨r', t, h1, ?_, h3⟩
  unfold height at h2
  linarith

/-- **C74** (which one): of the compositions found, one per direction at most, none is farther from the copy than the
one taken; one is taken whenever one is found. -/
theorem C74_farthest :
    (∀ r, split M h0 N m = some r → ∀ i < M.na, m i ≠ 0 → ∀ c, candidate M h0 N m i = some c → rTr M m c ≤ rTr M m r) ∧
    (split M h0 N m = none → ∀ i < M.na, m i ≠ 0 → candidate M h0 N m i = none) := by
  have hmem : ∀ i < M.na, m i ≠ 0 → ∀ c, candidate M h0 N m i = some c → c ∈ candidates M h0 N m := by
    intro i hi hne c hc
    refine List.mem_filterMap.2 ⟨i, ?_, hc⟩
    unfold live zero
    simp [hi, hne]
  constructor
  · intro r h i hi hne c hc
    exact (farthest_spec.1 r h).2 c (hmem i hi hne c hc)
  · intro h i hi hne
    have hnil : candidates M h0 N m = [] := farthest_spec.2.1 h
    cases hc : candidate M h0 N m i with
    | none => rfl
    | some c =>
      have := hmem i hi hne c hc
      rw [hnil] at this
      simp at this

/-- **C74** (no false alarm): a solution whose energy of mixing is convex along the straight lines from the composition
of the copy to the admissible compositions, and whose derivatives are those it reports, is never reported to unmix. -/
theorem C74_convex
    (hconv : ∀ r t, M.eval r = some t →
      ConvexOn ℝ (Set.Icc 0 1) fun s : ℝ => M.gmix fun j => ref M m j + s * (t j - ref M m j))
    (hder : ∀ r t, M.eval r = some t →
      HasDerivWithinAt (fun s : ℝ => M.gmix fun j => ref M m j + s * (t j - ref M m j))
        (∑ j ∈ range (M.na - 1), M.dgmix (ref M m) j * (t j - ref M m j)) (Set.Ici 0) 0) :
    split M h0 N m = none := by
  cases h : split M h0 N m with
  | none => rfl
  | some r =>
    exfalso
    obtain ⟨r', t, h1, h2, _⟩ := C74_below_tangent h
    have hc := hconv r' t h1
    have hd := hder r' t h1
    set φ := fun s : ℝ => M.gmix fun j => ref M m j + s * (t j - ref M m j) with hφ
    have e0 : φ 0 = M.gmix (ref M m) := by simp [hφ]
    have e1 : φ 1 = M.gmix t := by simp [hφ]
    have hd' : HasDerivWithinAt φ (∑ j ∈ range (M.na - 1), M.dgmix (ref M m) j * (t j - ref M m j)) (Set.Ioi 0) 0 :=
      hd.mono Set.Ioi_subset_Ici_self
    have := hc.le_slope_of_hasDerivWithinAt_Ioi (x := 0) (y := 1) (by simp) (by simp) one_pos hd'
    rw [slope_def_field, e0, e1] at this
    have hs := mul_nonneg small_pos.le (abs_nonneg (M.gmix (ref M m)))
    simp at this
    linarith

/-- **C74** (unmixing lowers the energy): if the energy of mixing `g` is below its tangent plane at `t`, then setting
apart a small enough part `ε` of the phase with composition `t`, the remainder taking up the difference, lowers the
energy. `s` runs along the line through the two compositions. -/
theorem C74_lowers_energy (g : (ℕ → ℝ) → ℝ) (b t : ℕ → ℝ) (D : ℝ)
    (hd : HasDerivAt (fun s : ℝ => g fun j => b j + s * (t j - b j)) D 0) (hlt : g t < g b + D) :
    ∃ δ > 0, δ < 1 ∧ ∀ ε, 0 < ε → ε < δ →
      (1 - ε) * g (fun j => (b j - ε * t j) / (1 - ε)) + ε * g t < g b := by
  set φ := fun s : ℝ => g fun j => b j + s * (t j - b j) with hφ
  have hφ0 : φ 0 = g b := by simp [hφ]
  have hψ : HasDerivAt (fun ε : ℝ => (1 - ε) * φ (-(ε / (1 - ε))) + ε * g t) (-g b + -D + g t) 0 := by
    have hin : HasDerivAt (fun ε : ℝ => -(ε / (1 - ε))) (-1) 0 := by
      have := ((hasDerivAt_id (0 : ℝ)).div ((hasDerivAt_const (0 : ℝ) (1 : ℝ)).sub (hasDerivAt_id 0)) (by simp)).neg
      convert! this using 1
      simp
    have hin' : HasDerivAt φ D (-((0 : ℝ) / (1 - 0))) := by simpa using hd
    have hcomp : HasDerivAt (fun ε : ℝ => φ (-(ε / (1 - ε)))) (D * -1) 0 := by
      have := HasDerivAt.comp (h₂ := φ) (0 : ℝ) hin' hin
      exact this
    have h1 : HasDerivAt (fun ε : ℝ => 1 - ε) (-1) 0 := by simpa using (hasDerivAt_id (0 : ℝ)).const_sub 1
    have hprod := h1.mul hcomp
    have h2 : HasDerivAt (fun ε : ℝ => ε * g t) (1 * g t) 0 := (hasDerivAt_id (0 : ℝ)).mul_const (g t)
    have hsum := hprod.add h2
    have e : (-1 * φ (-(0 / (1 - 0))) + (1 - 0) * (D * -1) + 1 * g t : ℝ) = -g b + -D + g t := by
      rw [show (-(0 / (1 - 0)) : ℝ) = 0 by simp, hφ0]; ring
    rw [e] at hsum
    exact hsum
  have hneg : -g b + -D + g t < 0 := by linarith
  have hev := (hasDerivAt_iff_tendsto_slope.1 hψ).eventually (gt_mem_nhds hneg)
  rw [eventually_nhdsWithin_iff, Metric.eventually_nhds_iff] at hev
  obtain ⟨δ, hδ, hev⟩ := hev
  refine ⟨min δ (1 / 2), by positivity, lt_of_le_of_lt (min_le_right _ _) (by norm_num), ?_⟩
  intro ε h0 h1
  have hε1 : ε < 1 / 2 := lt_of_lt_of_le h1 (min_le_right _ _)
  have hsl := hev (y := ε) (by rw [Real.dist_eq, sub_zero, abs_of_pos h0]; exact lt_of_lt_of_le h1 (min_le_left _ _)) h0.ne'
  rw [slope_def_field, sub_zero, div_neg_iff] at hsl
  rcases hsl with ⟨_, h⟩ | ⟨hsl, _⟩
  · linarith
  · simp only [zero_div, sub_zero, neg_zero, zero_mul, add_zero, one_mul, hφ0] at hsl
    have hφε : φ (-(ε / (1 - ε))) = g (fun j => (b j - ε * t j) / (1 - ε)) := by
      simp only [hφ]
      congr 1
      funext j
      have : (1 - ε) ≠ 0 := by linarith
      field_simp
      ring
    rw [hφε] at hsl
    linarith

/-- **C74** (no new end members): where mole fractions are affine in the independent variables with the derivatives the
solution reports, an end member absent from the copy is absent, up to rounding, from what it unmixes into. -/
theorem C74_excluded (h : split M h0 N m = some r) (D : ℕ → ℕ → ℝ) (hD : ∀ r, M.dxdr r = D)
    (haff : ∀ r r' i, i < M.na → M.frac r i - M.frac r' i = ∑ j ∈ range (M.na - 1), D i j * (r j - r' j))
    (hconv : ∀ x i, i < M.na → x i = 0 → M.frac (M.conv x) i = 0) (i : ℕ) (hi : i < M.na) (hz : m i = 0) :
    |M.frac r i| ≤ 10 * eps * (M.na * ∑ j ∈ range (M.na - 1), |D i j|) := by
  obtain ⟨hm, _⟩ := farthest_spec.1 r h
  obtain ⟨k, hk, hc⟩ := List.mem_filterMap.1 hm
  unfold candidate at hc
  simp only at hc
  split at hc
  · split_ifs at hc
    injection hc with hc
    rw [← hc]
    refine point_excluded M m h0 _ _ D hD haff i hi hz (hconv _ i hi ?_) (List.length_pos_of_mem hk)
    unfold startMoles Unmix.zero
    simp [hz]
  · simp at hc

/-! ### Conservation -/

variable {nc nlc : ℕ}

theorem sum_zipWith_sub (ems : List (SRow nc nlc ℝ)) (o : Fin nc) (y : ℝ) :
    ∀ (cs ms : List ℝ), cs.length = ms.length →
      (List.zipWith (fun r c => c * r.solToOx o) ems (List.zipWith (fun c a => c - a * y) cs ms)).sum
        + (List.zipWith (fun r c => c * r.solToOx o) ems (ms.map fun a => a * y)).sum
        = (List.zipWith (fun r c => c * r.solToOx o) ems cs).sum := by
  induction ems with
  | nil => intro cs ms _; simp
  | cons e es ih =>
    intro cs ms hl
    cases cs with
    | nil => cases ms with
      | nil => simp
      | cons a as => simp at hl
    | cons c cs => cases ms with
      | nil => simp at hl
      | cons a as =>
        have := ih cs as (by simpa using hl)
        simp only [List.zipWith_cons_cons, List.map_cons, List.sum_cons]
        linarith

theorem takeFrom_oxide (p : SPhase nc nlc ℝ) (hp : p.ems ≠ []) (ms : List ℝ) (y : ℝ) (x : Inst ℝ)
    (hl : x.comps.length = ms.length) (o : Fin nc) :
    soxide p o (takeFrom ms y x) + soxide p o (seed p ms y) = soxide p o x := by
  unfold soxide takeFrom seed
  simp only [if_neg hp]
  exact sum_zipWith_sub p.ems o y x.comps ms hl

theorem onLast_sum {α : Type} (f : α → α) (w : α → ℝ) (d : ℝ) :
    ∀ (xs : List α), xs ≠ [] → (∀ x ∈ xs, w (f x) + d = w x) → ((onLast f xs).map w).sum + d = (xs.map w).sum
  | [], h, _ => absurd rfl h
  | [x], _, h => by simp [onLast, h x (by simp)]
  | x :: y :: ys, _, h => by
    have := onLast_sum f w d (y :: ys) (by simp) (fun z hz => h z (List.mem_cons_of_mem _ hz))
    simp only [onLast, List.map_cons, List.sum_cons] at this ⊢
    linarith

theorem onLast_length {α : Type} (f : α → α) : ∀ xs : List α, (onLast f xs).length = xs.length
  | [] => rfl
  | [_] => rfl
  | x :: y :: ys => by
    have := onLast_length f (y :: ys)
    simp only [onLast, List.length_cons] at this ⊢
    omega

theorem onLast_mem {α : Type} (f : α → α) (P : α → Prop) (hf : ∀ x, P x → P (f x)) :
    ∀ xs : List α, (∀ x ∈ xs, P x) → ∀ x ∈ onLast f xs, P x
  | [], h => by simp [onLast]
  | [x], h => by simpa [onLast] using hf x (h x (by simp))
  | x :: y :: ys, h => by
    have := onLast_mem f P hf (y :: ys) (fun z hz => h z (List.mem_cons_of_mem _ hz))
    intro z hz
    simp only [onLast] at hz this
    rcases List.mem_cons.1 hz with rfl | hz
    · exact h z (by simp)
    · exact this z hz

theorem seedLoop_test {test : (Fin nlc → ℝ) → Bool} {lim : ℝ} {l0 : Fin nlc → ℝ} {p : SPhase nc nlc ℝ} {ms : List ℝ}
    {fuel : ℕ} {massin y : ℝ} (h : seedLoop test lim l0 p ms fuel massin = some (some y)) :
    test (fun j => l0 j - liqOf p (seed p ms y) j) = true := by
  induction fuel generalizing massin with
  | zero => simp [seedLoop] at h
  | succ n ih =>
    unfold seedLoop at h
    split at h
    · rename_i ht
      simp only [Option.some.injEq] at h
      subst h
      exact ht
    · split at h
      · simp at h
      · exact ih h

theorem addCopy_spec (tb : Tables nc nlc ℝ) (test : (Fin nlc → ℝ) → Bool) (massin : ℝ) (fuel k : ℕ)
    (q : SState nc nlc ℝ) (ms : List ℝ) (s s' : Sys nc nlc ℝ) (hk : s.solids[k]? = some q) (hp : PhaseOk tb q.ph)
    (he : q.ph.ems ≠ []) (hne : q.insts ≠ []) (hc : ∀ x ∈ q.insts, x.comps.length = ms.length)
    (h : addCopy test massin fuel k q ms s = some s') :
    (∀ o, total tb s' o = total tb s o) ∧ s'.bulk = s.bulk ∧ s'.liquids.length = s.liquids.length ∧
      (∀ k', k' ≠ k → s'.solids[k']? = s.solids[k']?) ∧
      ∃ q', s'.solids[k]? = some q' ∧ q'.ph = q.ph ∧ q'.insts.length = q.insts.length + 1 ∧
        (∀ x ∈ q'.insts, x.comps.length = ms.length) ∧
        ∃ x n, q'.insts.getLast? = some x ∧ x.comps = ms.map (fun a => a * x.tot) ∧ x.tot = massin * (1 / 2) ^ n ∧
          (s.liquids = [] → n = 0) ∧ ∀ l0 ls, s.liquids = l0 :: ls → q'.insts.dropLast = q.insts ∧
            ∃ l, s'.liquids = l :: ls ∧ test l = true := by
  have hlt : k < s.solids.length := by
    by_contra hh
    rw [List.getElem?_eq_none (not_lt.1 hh)] at hk
    cases hk
  have hseed : ∀ y, (seed q.ph ms y).comps.length = ms.length := by
    intro y; unfold seed; simp [he]
  unfold addCopy at h
  split at h
  · rename_i l0 ls hl
    split at h
    · rename_i y hy
      injection h with h
      subst h
      refine ⟨fun o => ?_, rfl, by simp [hl], ?_, { q with insts := q.insts ++ [seed q.ph ms y] }, ?_, rfl, by simp, ?_, ?_⟩
      · simp only [total, setSolid]
        rw [solidsOxide_set _ k q _ hk o, hl, liquidsOxide_cons, liquidsOxide_cons]
        simp only [sub_mul, Finset.sum_sub_distrib, liqOf_oxide tb q.ph hp, List.map_append, List.sum_append,
          List.map_cons, List.map_nil, List.sum_cons, List.sum_nil]
        ring
      · intro k' hk'
        simp only [setSolid]
        rw [List.getElem?_set_ne (Ne.symm hk')]
      · simp only [setSolid]
        rw [List.getElem?_set_self hlt]
      · intro x hx
        simp only [List.mem_append, List.mem_singleton] at hx
        rcases hx with hx | rfl
        · exact hc x hx
        · exact hseed _
      · obtain ⟨n, hn⟩ := seedLoop_pow test 0 l0 q.ph ms fuel massin y hy
        refine ⟨seed q.ph ms y, n, by simp, by unfold seed; simp [he], by rw [← hn]; unfold seed; simp [he],
          fun hh => (by rw [hl] at hh; cases hh), fun l0' ls' hh => ?_⟩
        rw [hl] at hh
        injection hh with h1 h2
        subst h1 h2
        refine ⟨by simp, _, rfl, seedLoop_test hy⟩
    · cases h
  · rename_i hl
    injection h with h
    subst h
    refine ⟨fun o => ?_, rfl, rfl, ?_, { q with insts := onLast (takeFrom ms massin) q.insts ++ [seed q.ph ms massin] }, ?_,
      rfl, by simp [onLast_length], ?_, seed q.ph ms massin, 0, by simp, by unfold seed; simp [he],
      by unfold seed; simp [he], fun _ => rfl, fun l0 ls hh => by rw [hl] at hh; cases hh⟩
    · simp only [total, setSolid]
      rw [solidsOxide_set _ k q _ hk o]
      have := onLast_sum (takeFrom ms massin) (soxide q.ph o) (soxide q.ph o (seed q.ph ms massin)) q.insts hne
        (fun x hx => takeFrom_oxide q.ph he ms massin x (hc x hx) o)
      simp only [List.map_append, List.sum_append, List.map_cons, List.map_nil, List.sum_cons, List.sum_nil]
      linarith
    · intro k' hk'
      simp only [setSolid]
      rw [List.getElem?_set_ne (Ne.symm hk')]
    · simp only [setSolid]
      rw [List.getElem?_set_self hlt]
    · intro x hx
      simp only [List.mem_append, List.mem_singleton] at hx
      rcases hx with hx | rfl
      · refine onLast_mem _ (fun x => x.comps.length = ms.length) (fun x hx => ?_) q.insts hc x hx
        simp [takeFrom, hx]
      · exact hseed _

/-- What the routine assumes of a state: consistent stoichiometry, and one entry per end member in every copy of a
solution. -/
def Good (tb : Tables nc nlc ℝ) (info : ℕ → Info) (s : Sys nc nlc ℝ) : Prop :=
  ∀ k q, s.solids[k]? = some q → PhaseOk tb q.ph ∧ (q.ph.ems ≠ [] → ∀ x ∈ q.insts, x.comps.length = (info k).mix.na)

/-- Phase `k` after the test, given the phase before: unchanged, or one copy more; then it is a solution one of whose
copies unmixes, and it is not among the exceptions. -/
def Outcome (info : ℕ → Info) (h0 : (ℕ → ℝ) → ℕ → ℝ) (N k : ℕ) (massin : ℝ) (q q' : SState nc nlc ℝ) : Prop :=
  q' = q ∨ (q'.ph = q.ph ∧ q'.insts.length = q.insts.length + 1 ∧ blocked (info k).label q.insts.length = false ∧
    ∃ x ∈ q.insts, ∃ r, split (info k).mix (h0 (moles x)) N (moles x) = some r ∧
      ∃ y n, q'.insts.getLast? = some y ∧ y.tot = massin * (1 / 2) ^ n ∧
        y.comps = (List.range (info k).mix.na).map fun i => (info k).mix.frac r i * y.tot)

theorem found_spec {M : Mix} {l : Label} {h0 : (ℕ → ℝ) → ℕ → ℝ} {q : SState nc nlc ℝ} {c : ℕ → ℝ}
    (h : found M l h0 N q = some c) : blocked l q.insts.length = false ∧ q.insts ≠ [] ∧
      ∃ x ∈ q.insts, split M (h0 (moles x)) N (moles x) = some c := by
  unfold found at h
  split_ifs at h with hb
  obtain ⟨x, hx, hs⟩ := List.exists_of_findSome?_eq_some h
  exact ⟨by simpa using hb, List.ne_nil_of_mem hx, x, hx, hs⟩

theorem solidsLoop_spec (tb : Tables nc nlc ℝ) (info : ℕ → Info) (h0 : (ℕ → ℝ) → ℕ → ℝ) (N : ℕ)
    (test : (Fin nlc → ℝ) → Bool) (massin : ℝ) (fuel : ℕ) :
    ∀ (ks : List ℕ) (r r' : Sys nc nlc ℝ × Bool), ks.Nodup → Good tb info r.1 →
      solidsLoop info h0 N test massin fuel ks r = some r' →
      (∀ o, total tb r'.1 o = total tb r.1 o) ∧ r'.1.bulk = r.1.bulk ∧ r'.1.liquids.length = r.1.liquids.length ∧
      (∀ k, k ∉ ks → r'.1.solids[k]? = r.1.solids[k]?) ∧
      (∀ k q, r.1.solids[k]? = some q → ∃ q', r'.1.solids[k]? = some q' ∧ Outcome info h0 N k massin q q') ∧
      (∀ k ∈ ks, ∀ q, r.1.solids[k]? = some q → q.ph.ems ≠ [] → found (info k).mix (info k).label h0 N q ≠ none →
        ∃ q', r'.1.solids[k]? = some q' ∧ q'.insts.length = q.insts.length + 1) ∧
      (r'.2 = true ↔ r.2 = true ∨ ∃ (k : ℕ) (q q' : SState nc nlc ℝ), r.1.solids[k]? = some q ∧ r'.1.solids[k]? = some q' ∧ q' ≠ q)
  | [], r, r', _, _, h => by
    simp only [solidsLoop, Option.some.injEq] at h
    subst h
    refine ⟨fun _ => rfl, rfl, rfl, fun _ _ => rfl, fun k q hq => ⟨q, hq, Or.inl rfl⟩, by simp, ?_⟩
    constructor
    · exact Or.inl
    · rintro (h | ⟨k, q, q', h1, h2, h3⟩)
      · exact h
      · rw [h1] at h2; injection h2 with h2; exact absurd h2.symm h3
  | k :: ks, r, r', hnd, hg, h => by
    have hks : ks.Nodup := (List.nodup_cons.1 hnd).2
    have hkn : k ∉ ks := (List.nodup_cons.1 hnd).1
    have skip : solidsLoop info h0 N test massin fuel ks r = some r' → _ :=
      solidsLoop_spec tb info h0 N test massin fuel ks r r' hks hg
    unfold solidsLoop at h
    split at h
    · rename_i hq
      obtain ⟨a, b, c, d, e, g, f⟩ := skip h
      refine ⟨a, b, c, fun k' hk' => d k' (fun hh => hk' (List.mem_cons_of_mem _ hh)), e, ?_, f⟩
      intro k' hk' q' hq' h1 h2
      rcases List.mem_cons.1 hk' with rfl | hk'
      · rw [hq] at hq'; cases hq'
      · exact g k' hk' q' hq' h1 h2
    · rename_i q hq
      split at h
      · rename_i he
        obtain ⟨a, b, c, d, e, g, f⟩ := skip h
        refine ⟨a, b, c, fun k' hk' => d k' (fun hh => hk' (List.mem_cons_of_mem _ hh)), e, ?_, f⟩
        intro k' hk' q' hq' h1 h2
        rcases List.mem_cons.1 hk' with rfl | hk'
        · rw [hq] at hq'; injection hq' with hq'; subst hq'; exact absurd he h1
        · exact g k' hk' q' hq' h1 h2
      · rename_i he
        split at h
        · rename_i hf
          obtain ⟨a, b, c, d, e, g, f⟩ := skip h
          refine ⟨a, b, c, fun k' hk' => d k' (fun hh => hk' (List.mem_cons_of_mem _ hh)), e, ?_, f⟩
          intro k' hk' q' hq' h1 h2
          rcases List.mem_cons.1 hk' with rfl | hk'
          · rw [hq] at hq'; injection hq' with hq'; subst hq'; exact absurd hf h2
          · exact g k' hk' q' hq' h1 h2
        · rename_i c hc
          split at h
          · cases h
          · rename_i s1 hs1
            obtain ⟨hb, hne, x, hx, hsp⟩ := found_spec hc
            obtain ⟨hp, hlen⟩ := hg k q hq
            have hfl : (fractions (info k).mix c).length = (info k).mix.na := by simp [fractions]
            obtain ⟨t1, t2, t3, t4, q1, u1, u2, u3, u4, y, n, v1, v2, v3, -, -⟩ := addCopy_spec tb test massin fuel k q _ r.1 s1 hq hp he hne
              (fun x hx => by rw [hfl]; exact hlen he x hx) hs1
            have hg1 : Good tb info s1 := by
              intro k' q' hq'
              by_cases hkk : k' = k
              · subst hkk
                rw [u1] at hq'
                injection hq' with hq'
                subst hq'
                rw [u2]
                exact ⟨hp, fun _ x hx => by rw [u4 x hx, hfl]⟩
              · rw [t4 k' hkk] at hq'
                exact hg k' q' hq'
            obtain ⟨a, b, c', d, e, g, f⟩ := solidsLoop_spec tb info h0 N test massin fuel ks (s1, true) r' hks hg1 h
            have hk1 : r'.1.solids[k]? = some q1 := by rw [d k hkn]; exact u1
            refine ⟨fun o => (a o).trans (t1 o), b.trans t2, c'.trans t3, ?_, ?_, ?_, ?_⟩
            · intro k' hk'
              rw [List.mem_cons, not_or] at hk'
              exact (d k' hk'.2).trans (t4 k' hk'.1)
            · intro k' q' hq'
              by_cases hkk : k' = k
              · subst hkk
                rw [hq] at hq'
                injection hq' with hq'
                subst hq'
                exact ⟨q1, hk1, Or.inr ⟨u2, u3, hb, x, hx, _, hsp, y, n, v1, v3, by rw [v2]; simp [fractions]⟩⟩
              · exact e k' q' (by rw [← hq']; exact t4 k' hkk)
            · intro k' hk' q' hq' h1 h2
              rcases List.mem_cons.1 hk' with rfl | hk'
              · rw [hq] at hq'
                injection hq' with hq'
                subst hq'
                exact ⟨q1, hk1, u3⟩
              · exact g k' hk' q' (by rw [← hq']; exact t4 k' (fun hh => hkn (hh ▸ hk'))) h1 h2
            · refine ⟨fun _ => Or.inr ⟨k, q, q1, hq, hk1, ?_⟩, fun _ => f.2 (Or.inl rfl)⟩
              rintro rfl
              omega

/-- **C74** (solids): testing the solids for unmixing keeps every oxide total, the bulk composition and the number of
liquids; each phase is left alone or gains one copy; it gains one exactly if it is a solution one of whose copies
unmixes, it is not orthopyroxene, and it had fewer than two copies (feldspar) or three copies (clinopyroxene); the copy
comes last, with the composition found, in the amount given or that amount halved; the routine reports whether some
phase gained a copy. -/
theorem C74_solids (tb : Tables nc nlc ℝ) (info : ℕ → Info) (h0 : (ℕ → ℝ) → ℕ → ℝ) (N : ℕ)
    (test : (Fin nlc → ℝ) → Bool) (massin : ℝ) (fuel : ℕ) (T P : ℝ) (s s' : Sys nc nlc ℝ) (flag : Bool)
    (hg : Good tb info s) (h : checkSolids info h0 N test massin fuel T P s = some (s', flag)) :
    (∀ o, total tb s' o = total tb s o) ∧ s'.bulk = s.bulk ∧ s'.liquids.length = s.liquids.length ∧
    (∀ k q, s.solids[k]? = some q → ∃ q', s'.solids[k]? = some q' ∧
      (q' = q ∨ (q'.ph = q.ph ∧ q'.insts.length = q.insts.length + 1 ∧
        (∃ x ∈ q.insts, ∃ r, split (info k).mix (h0 (moles x)) N (moles x) = some r ∧
          ∃ y n, q'.insts.getLast? = some y ∧ y.tot = massin * (1 / 2) ^ n ∧
            y.comps = (List.range (info k).mix.na).map fun i => (info k).mix.frac r i * y.tot) ∧
        (info k).label ≠ .orthopyroxene ∧ ((info k).label = .feldspar → q'.insts.length ≤ 2) ∧
        ((info k).label = .clinopyroxene → q'.insts.length ≤ 3)))) ∧
    (∀ k q, s.solids[k]? = some q → q.ph.ems ≠ [] → 0 < T → 0 ≤ P → (info k).label ≠ .orthopyroxene →
      ((info k).label = .feldspar → q.insts.length < 2) → ((info k).label = .clinopyroxene → q.insts.length < 3) →
      (∃ x ∈ q.insts, split (info k).mix (h0 (moles x)) N (moles x) ≠ none) →
      ∃ q', s'.solids[k]? = some q' ∧ q'.insts.length = q.insts.length + 1) ∧
    (flag = true ↔ ∃ (k : ℕ) (q q' : SState nc nlc ℝ), s.solids[k]? = some q ∧ s'.solids[k]? = some q' ∧ q'.insts.length = q.insts.length + 1) := by
  unfold checkSolids at h
  split_ifs at h with hTP
  · injection h with h
    injection h with h1 h2
    subst h1 h2
    refine ⟨fun _ => rfl, rfl, rfl, fun k q hq => ⟨q, hq, Or.inl rfl⟩, ?_, ?_⟩
    · intro k q _ _ h1 h2
      rcases hTP with h | h <;> linarith
    constructor
    · simp
    · rintro ⟨k, q, q', a, b, c⟩
      rw [a] at b; injection b with b; subst b; omega
  · obtain ⟨a, b, c, -, e, g, f⟩ := solidsLoop_spec tb info h0 N test massin fuel _ (s, false) (s', flag) List.nodup_range hg h
    refine ⟨a, b, c, ?_, ?_, ?_⟩
    · intro k q hq
      obtain ⟨q', h1, h2⟩ := e k q hq
      refine ⟨q', h1, ?_⟩
      rcases h2 with h2 | ⟨h2, h3, h4, h5⟩
      · exact Or.inl h2
      · refine Or.inr ⟨h2, h3, h5, ?_, ?_, ?_⟩
        · intro hl; rw [hl] at h4; simp [blocked] at h4
        · intro hl; rw [hl] at h4; simp [blocked] at h4; omega
        · intro hl; rw [hl] at h4; simp [blocked] at h4; omega
    · rintro k q hq he - - l1 l2 l3 ⟨x, hx, hs⟩
      have hlt : k < s.solids.length := by
        by_contra hh
        rw [List.getElem?_eq_none (not_lt.1 hh)] at hq
        cases hq
      refine g k (List.mem_range.2 hlt) q hq he ?_
      unfold found
      rw [if_neg]
      · intro hn
        rw [List.findSome?_eq_none_iff] at hn
        exact hs (hn x hx)
      · cases hl : (info k).label <;> simp_all [blocked]
    · rw [f]
      simp only [Bool.false_eq_true, false_or]
      constructor
      · rintro ⟨k, q, q', h1, h2, h3⟩
        obtain ⟨q'', h4, h5⟩ := e k q h1
        rw [h2] at h4
        injection h4 with h4
        subst h4
        rcases h5 with h5 | ⟨_, h5, _⟩
        · exact absurd h5 h3
        · exact ⟨k, q, q', h1, h2, h5⟩
      · rintro ⟨k, q, q', h1, h2, h3⟩
        refine ⟨k, q, q', h1, h2, ?_⟩
        rintro rfl
        omega

/-- **C74** (liquids): the test keeps the total of every component, hence every oxide; it leaves the liquids alone or
adds one at the end, taken from the first, with the fractions some liquid unmixes into, in the amount given. -/
theorem C74_liquids (tb : Tables nc nlc ℝ) (M : Mix) (h0 : (ℕ → ℝ) → ℕ → ℝ) (N : ℕ) (massin T P : ℝ)
    (ls ls' : List (Fin nlc → ℝ)) (flag : Bool) (h : checkLiquids M h0 N massin T P ls = (ls', flag)) :
    (∀ o, liquidsOxide tb ls' o = liquidsOxide tb ls o) ∧
    (∀ j, (ls'.map fun l => l j).sum = (ls.map fun l => l j).sum) ∧
    (flag = false → ls' = ls) ∧
    (flag = true → ∃ l0 rest r, ls = l0 :: rest ∧ (∃ l ∈ ls, split M (h0 (ext l)) N (ext l) = some r) ∧
      ls' = (fun i => l0 i - M.frac r i * massin) :: rest ++ [fun i : Fin nlc => M.frac r i * massin]) ∧
    ((∃ l ∈ ls, split M (h0 (ext l)) N (ext l) ≠ none) → 0 < T → 0 ≤ P → flag = true) := by
  unfold checkLiquids at h
  split at h
  · injection h with h1 h2
    subst h1 h2
    simp
  · rename_i l0 rest
    split_ifs at h with hTP
    · injection h with h1 h2
      subst h1 h2
      refine ⟨fun _ => rfl, fun _ => rfl, fun _ => rfl, by simp, fun _ h1 h2 => ?_⟩
      rcases hTP with h | h <;> linarith
    · split at h
      · rename_i hnone
        injection h with h1 h2
        subst h1 h2
        refine ⟨fun _ => rfl, fun _ => rfl, fun _ => rfl, by simp, ?_⟩
        rintro ⟨l, hl, hs⟩
        rw [List.findSome?_eq_none_iff] at hnone
        exact absurd (hnone l hl) hs
      · rename_i r hr
        injection h with h1 h2
        subst h1 h2
        obtain ⟨l, hl, hs⟩ := List.exists_of_findSome?_eq_some hr
        refine ⟨fun o => ?_, fun j => ?_, by simp, fun _ => ⟨l0, rest, r, rfl, ⟨l, hl, hs⟩, rfl⟩, fun _ _ _ => rfl⟩
        · simp only [liquidsOxide, List.cons_append, List.map_cons, List.map_append, List.sum_cons, List.sum_append,
            List.map_nil, List.sum_nil, sub_mul, sum_sub_distrib]
          ring
        · simp only [List.cons_append, List.map_cons, List.map_append, List.sum_cons, List.sum_append,
            List.map_nil, List.sum_nil]
          ring

end Magma.Engine.Unmix
