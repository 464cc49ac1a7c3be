import Verif.Engine.SubO2Reaction

/-!
# C75: running the reaction to a given oxygen potential; examples and a counterexample for the reaction
-/

namespace Magma.Engine.SubO2

open Finset Magma.Engine.System
open Magma.Engine.Evaluate (Svd IsSvd svSolve trunc)

noncomputable section

variable {K : ℕ} {S : Fin K → Solid} {test : ∀ i, (Fin (S i).ph.na → ℝ) → Bool} {nc : ℕ} {nu : Reaction S}
  {T P target : ℝ}

theorem advance_zero (m : Amounts S) : advance nu 0 m = m := by
  funext i j; simp [advance]

theorem advance_add (x y : ℝ) (m : Amounts S) : advance nu x (advance nu y m) = advance nu (y + x) m := by
  funext i j
  simp only [advance]
  split
  · ring
  · rfl

theorem bulk_advance {feo fe2o3 : ℕ} (hb : Balanced S nc feo fe2o3 nu) (xi : ℝ) (m : Amounts S) {o : ℕ} (ho : o < nc) :
    bulkOf S (advance nu xi m) o = bulkOf S m o + xi * wanted feo fe2o3 o := by
  rw [wanted, ← hb.bal o ho, csum, mul_sum, bulkOf, bulkOf, ← sum_add_distrib]
  refine sum_congr rfl fun i _ => ?_
  have h1 : ∀ j, advance nu xi m i j * (S i).ph.ox j o
      = m i j * (S i).ph.ox j o + if j ∈ (S i).on then xi * (nu.c i j * (S i).ph.ox j o) else 0 := by
    intro j
    simp only [advance]
    split <;> ring
  rw [sum_congr rfl fun j _ => h1 j, sum_add_distrib, sum_ite_mem, univ_inter, mul_sum]

theorem search_some {s s' : Loop S} {xi : ℝ} {r : Option (Loop S)} (h : Search S test nc nu s xi r) (hr : r = some s') :
    ∃ x, s'.m = advance nu x s.m ∧ s'.o2 = s.o2 - x ∧ Acceptable S test nc s'.m s'.o2 := by
  induction h with
  | @accept xi h => cases hr; exact ⟨xi, rfl, rfl, h⟩
  | stop => cases hr
  | halve _ _ _ ih => exact ih hr

theorem search_none {s : Loop S} {xi : ℝ} {r : Option (Loop S)} (h : Search S test nc nu s xi r) (hr : r = none) (k : ℕ)
    (hk : k = 0 ∨ 100 * eps ≤ |xi / 2 ^ k|) : ¬ Acceptable S test nc (advance nu (xi / 2 ^ k) s.m) (s.o2 - xi / 2 ^ k) := by
  induction h generalizing k with
  | accept => cases hr
  | @stop xi h hx =>
    rcases k with _ | k
    · simpa using h
    · exfalso
      have h1 := hk.resolve_left (by omega)
      have h2 : |xi / 2 ^ (k + 1)| ≤ |xi / 2| := by
        rw [pow_succ', ← div_div, abs_div (xi / 2)]
        refine div_le_self (abs_nonneg _) ?_
        rw [abs_of_pos (by positivity)]
        exact one_le_pow₀ (by norm_num)
      linarith
  | @halve xi r h hx hr' ih =>
    rcases k with _ | k
    · simpa using h
    · have e : xi / 2 ^ (k + 1) = xi / 2 / 2 ^ k := by rw [pow_succ', div_div]
      rw [e] at hk ⊢
      exact ih hr k (Or.inr (hk.resolve_left (by omega)))

/-- The state of the bookkeeping does not touch the amounts. -/
theorem secant_m (s : Loop S) : (secant S nu T P target s).m = s.m ∧ (secant S nu T P target s).o2 = s.o2 := ⟨rfl, rfl⟩

/-- **C75** (imposed potential): a run that ends leaves the solids where the reaction has advanced by some `xi` from where they
were. If the reaction is balanced then FeO has become Fe2O3 by the oxygen taken up and no other oxide has changed. If a step
was made the final amounts passed all tests. A run that reports success has the potential asked for. -/
theorem C75_buffer {feo fe2o3 : ℕ} (hb : Balanced S nc feo fe2o3 nu) {s : Loop S} {b : Bool} {m' : Amounts S}
    (h : Run S test nc nu T P target s b m') :
    ∃ xi, m' = advance nu xi s.m ∧ (∀ o < nc, bulkOf S m' o = bulkOf S s.m o + xi * wanted feo fe2o3 o) ∧
      ((xi = 0 ∧ m' = s.m) ∨ Acceptable S test nc m' (s.o2 - xi)) ∧
      (b = true → |muO2 S nu T P m' - target| < Real.sqrt eps) ∧
      (b = false → ∃ x, ∀ k : ℕ, (k = 0 ∨ 100 * eps ≤ |x / 2 ^ k|) →
        ¬ Acceptable S test nc (advance nu (x / 2 ^ k) m') (s.o2 - xi - x / 2 ^ k)) := by
  have key : ∃ xi, m' = advance nu xi s.m ∧ ((xi = 0 ∧ m' = s.m) ∨ Acceptable S test nc m' (s.o2 - xi)) ∧
      (b = true → |muO2 S nu T P m' - target| < Real.sqrt eps) ∧
      (b = false → ∃ x, ∀ k : ℕ, (k = 0 ∨ 100 * eps ≤ |x / 2 ^ k|) →
        ¬ Acceptable S test nc (advance nu (x / 2 ^ k) m') (s.o2 - xi - x / 2 ^ k)) := by
    induction h with
    | done h => exact ⟨0, (advance_zero _).symm, Or.inl ⟨rfl, rfl⟩, fun _ => h, by simp⟩
    | @fail s h hd hs =>
      refine ⟨0, (advance_zero _).symm, Or.inl ⟨rfl, rfl⟩, by simp, fun _ => ⟨step S nu T P target s, fun k hk => ?_⟩⟩
      rw [sub_zero]
      exact search_none hs rfl k hk
    | @next s s' b m h hd hs hr ih =>
      obtain ⟨xi, h1, h2, h3, h4⟩ := ih
      obtain ⟨x, e1, e2, e3⟩ := search_some hs rfl
      refine ⟨x + xi, ?_, ?_, h3, ?_⟩
      · rw [h1, e1, advance_add]; rfl
      · right
        have e : s.o2 - (x + xi) = s'.o2 - xi := by rw [e2]; simp only [secant]; ring
        rw [e]
        rcases h2 with ⟨h2, h2'⟩ | h2
        · rw [h2, h2', sub_zero]
          exact e3
        · exact h2
      · have e : s.o2 - (x + xi) = s'.o2 - xi := by rw [e2]; simp only [secant]; ring
        rw [e]
        exact h4
  obtain ⟨xi, h1, h2, h3, h4⟩ := key
  refine ⟨xi, h1, fun o ho => ?_, h2, h3, h4⟩
  rw [h1]
  exact bulk_advance hb xi s.m ho

/-- **C75** (halving ends): whatever the first step, the halving of steps comes to an end. -/
theorem C75_halving_ends (s : Loop S) (xi : ℝ) : ∃ r, Search S test nc nu s xi r := by
  have key : ∀ (n : ℕ) (xi : ℝ), |xi| < 100 * eps * 2 ^ n → ∃ r, Search S test nc nu s xi r := by
    intro n
    induction n with
    | zero =>
      intro xi h
      by_cases ha : Acceptable S test nc (advance nu xi s.m) (s.o2 - xi)
      · exact ⟨_, .accept ha⟩
      · refine ⟨_, .stop ha ?_⟩
        rw [abs_div, abs_two]
        have := abs_nonneg xi
        linarith
    | succ n ih =>
      intro xi h
      by_cases ha : Acceptable S test nc (advance nu xi s.m) (s.o2 - xi)
      · exact ⟨_, .accept ha⟩
      · by_cases hx : |xi / 2| < 100 * eps
        · exact ⟨_, .stop ha hx⟩
        · obtain ⟨r, hr⟩ := ih (xi / 2) (by rw [abs_div, abs_two, pow_succ] at *; linarith)
          exact ⟨r, .halve ha hx hr⟩
  have he : 0 < 100 * eps := by unfold eps; norm_num
  obtain ⟨n, hn⟩ := pow_unbounded_of_one_lt (|xi| / (100 * eps)) (by norm_num : (1 : ℝ) < 2)
  exact key n xi (by rwa [div_lt_iff₀ he, mul_comm] at hn)

/-- **C75** (finding): in an assemblage of pure solids the potential is the same whatever the amounts, so that no run reaches a
potential that the assemblage does not already have; none of them ends. -/
theorem C75_pure_never (hp : ∀ i, (S i).ph.pure = true) {s : Loop S} {b : Bool} {m' : Amounts S}
    (h : Run S test nc nu T P target s b m') :
    b = true ∧ m' = s.m ∧ |muO2 S nu T P s.m - target| < Real.sqrt eps ∧
      ∀ m'', muO2 S nu T P m'' = muO2 S nu T P s.m := by
  have h0 : ∀ m, den S nu T P m = 0 := fun m => by
    unfold den csum
    exact sum_eq_zero fun i _ => sum_eq_zero fun j _ => if_pos (hp i)
  have hc : ∀ m'', muO2 S nu T P m'' = muO2 S nu T P s.m := fun m'' => by
    unfold muO2 a
    simp only [hp, if_true]
  cases h with
  | done h => exact ⟨rfl, rfl, h, hc⟩
  | fail h hd hs => exact absurd (h0 _) hd
  | next h hd hs hr => exact absurd (h0 _) hd

/-! ### An assemblage without a reaction -/

/-- Fayalite and hematite, `x` and `y` moles, in a bulk composition of SiO2, Fe2O3 and FeO. -/
def faHem (x y : ℝ) : Assemblage where
  nc := 3
  bulk := fun _ => 1
  feo := 2
  fe2o3 := 1
  cols := [(0, 0), (1, 0)]
  amount := fun q => if q.1 = 0 then x else y
  ox := fun r o => if r = 0 then (if o = 0 then 1 else if o = 2 then 2 else 0) else (if o = 1 then 1 else 0)

/-- The singular value decomposition of its matrix: the columns are orthogonal. -/
def faHemSvd (x y : ℝ) : Svd where
  U := fun j q => if q = 0 then (if j = 0 then 1 else 0)
    else if q = 1 then (if j = 1 then 1 / Real.sqrt 5 else if j = 3 then 2 / Real.sqrt 5 else 0)
    else (if j = 2 then 1 else 0)
  S := fun q => if q = 0 then 10 else if q = 1 then Real.sqrt 5 * x else y
  V := fun k q => if k = q then 1 else 0

theorem faHem_oxides (x y : ℝ) : oxides (faHem x y) = [0, 1, 2] := by
  simp [oxides, faHem, List.range_succ]

theorem faHem_svd {x y : ℝ} (hx : 1 / 10 ^ 8 ≤ x) (hy : 1 / 10 ^ 8 ≤ y) : Decomposed (faHem x y) (faHemSvd x y) := by
  have s5 : Real.sqrt 5 ^ 2 = 5 := Real.sq_sqrt (by norm_num)
  have p5 : 1 ≤ Real.sqrt 5 := Real.one_le_sqrt.2 (by norm_num)
  have hx0 : (0 : ℝ) < x := lt_of_lt_of_le (by norm_num) hx
  have hy0 : (0 : ℝ) < y := lt_of_lt_of_le (by norm_num) hy
  have hr : nRow (faHem x y) = 4 := by rw [nRow, faHem_oxides]; rfl
  have hc : nCol (faHem x y) = 3 := rfl
  constructor
  · intro q _
    right
    simp only [faHemSvd]
    split
    · norm_num
    · split
      · nlinarith
      · exact hy
  · rw [hr, hc, if_pos (by norm_num)]
    refine ⟨?_, ?_, ?_, ?_⟩
    · intro j hj k hk
      unfold tall stoich weight
      rw [faHem_oxides]
      have : j = 0 ∨ j = 1 ∨ j = 2 ∨ j = 3 := by omega
      have : k = 0 ∨ k = 1 ∨ k = 2 := by omega
      rcases ‹j = 0 ∨ j = 1 ∨ j = 2 ∨ j = 3› with rfl | rfl | rfl | rfl <;>
        rcases ‹k = 0 ∨ k = 1 ∨ k = 2› with rfl | rfl | rfl <;>
        simp [sum_range_succ, faHemSvd, faHem] <;> field_simp
    · intro q hq q' hq'
      have : q = 0 ∨ q = 1 ∨ q = 2 := by omega
      have : q' = 0 ∨ q' = 1 ∨ q' = 2 := by omega
      rcases ‹q = 0 ∨ q = 1 ∨ q = 2› with rfl | rfl | rfl <;> rcases ‹q' = 0 ∨ q' = 1 ∨ q' = 2› with rfl | rfl | rfl <;>
        simp [sum_range_succ, faHemSvd] <;> field_simp <;> (try rw [s5]) <;> norm_num
    · intro q hq q' hq'
      have : q = 0 ∨ q = 1 ∨ q = 2 := by omega
      have : q' = 0 ∨ q' = 1 ∨ q' = 2 := by omega
      rcases ‹q = 0 ∨ q = 1 ∨ q = 2› with rfl | rfl | rfl <;> rcases ‹q' = 0 ∨ q' = 1 ∨ q' = 2› with rfl | rfl | rfl <;>
        simp [sum_range_succ, faHemSvd]
    · intro q _
      simp only [faHemSvd]
      split
      · norm_num
      · split
        · positivity
        · exact hy0.le

/-- **C75** (finding): the least-squares solution is used without a look at what is left over. For fayalite and hematite, from
which `O2 + 4 FeO = 2 Fe2O3` cannot be written because only fayalite has silica, a reaction is reported all the same, in any
amounts: 8/5 fayalite are used up for two hematite, and silica disappears. -/
theorem C75_unbalanced {x y : ℝ} (hx : 1 / 10 ^ 8 ≤ x) (hy : 1 / 10 ^ 8 ≤ y) :
    Sound (faHem x y) ∧ Decomposed (faHem x y) (faHemSvd x y) ∧ (¬ ∃ nu, Balances (faHem x y) nu) ∧
      ∃ nu, reaction (faHem x y) (faHemSvd x y) = some nu ∧ nu 0 = -1 ∧ nu 1 = -8 / 5 ∧ nu 2 = 2 := by
  have s5 : Real.sqrt 5 ^ 2 = 5 := Real.sq_sqrt (by norm_num)
  have p5 : 1 ≤ Real.sqrt 5 := Real.one_le_sqrt.2 (by norm_num)
  have hx0 : (0 : ℝ) < x := lt_of_lt_of_le (by norm_num) hx
  have hy0 : (0 : ℝ) < y := lt_of_lt_of_le (by norm_num) hy
  refine ⟨⟨by simp [faHem], by simp [faHem], ?_, ?_⟩, faHem_svd hx hy, ?_, ?_⟩
  · intro q _
    simp only [faHem]
    split
    · exact hx0.ne'
    · exact hy0.ne'
  · intro q _ o _ _
    simp [faHem]
  · rintro ⟨nu, -, h⟩
    have h0 := h 0 (by simp [faHem])
    have h2 := h 2 (by simp [faHem])
    simp [faHem, wanted, sum_range_succ] at h0 h2
    rw [h0] at h2
    norm_num at h2
  · have hr : nRow (faHem x y) = 4 := by rw [nRow, faHem_oxides]; rfl
    have hc : nCol (faHem x y) = 3 := rfl
    have e : ∀ k, solution (faHem x y) (faHemSvd x y) k = svSolve 4 3 (faHemSvd x y) (rhs (faHem x y)) k := fun k => by
      unfold solution
      rw [hr, hc, if_pos (by norm_num)]
    have t0 : trunc (faHemSvd x y) 0 = 10 := by
      unfold trunc
      rw [if_neg (by simp [faHemSvd]; norm_num)]
      rfl
    have t1 : trunc (faHemSvd x y) 1 = Real.sqrt 5 * x := by
      unfold trunc
      rw [if_neg (by simp only [faHemSvd]; rw [if_neg (by norm_num), if_pos trivial, not_lt]; nlinarith)]
      simp [faHemSvd]
    have t2 : trunc (faHemSvd x y) 2 = y := by
      unfold trunc
      rw [if_neg (by simp only [faHemSvd]; rw [if_neg (by norm_num), if_neg (by norm_num), not_lt]; exact hy)]
      simp [faHemSvd]
    have r0 : rhs (faHem x y) 0 = -1 := by simp [rhs]
    have r1 : rhs (faHem x y) 1 = 0 := by
      rw [rhs, faHem_oxides, hr]; simp [rhsOf, faHem]
    have r2 : rhs (faHem x y) 2 = 2 := by
      rw [rhs, faHem_oxides, hr]; simp [rhsOf, faHem]
    have r3 : rhs (faHem x y) 3 = -4 := by
      rw [rhs, faHem_oxides, hr]; simp [rhsOf, faHem]
    have x0 : solution (faHem x y) (faHemSvd x y) 0 = -1 / 10 := by
      rw [e]
      simp only [svSolve, sum_range_succ, range_zero, sum_empty, t0, t1, t2, r0, r1, r2, r3]
      simp [faHemSvd]
    have x1 : solution (faHem x y) (faHemSvd x y) 1 = -8 / 5 / x := by
      rw [e]
      simp only [svSolve, sum_range_succ, range_zero, sum_empty, t0, t1, t2, r0, r1, r2, r3]
      simp [faHemSvd, hx0.ne']
      field_simp
      rw [s5]
      norm_num
    have x2 : solution (faHem x y) (faHemSvd x y) 2 = 2 / y := by
      rw [e]
      simp only [svSolve, sum_range_succ, range_zero, sum_empty, t0, t1, t2, r0, r1, r2, r3]
      simp [faHemSvd, hy0.ne']
    refine ⟨_, by
      unfold reaction
      rw [if_pos ⟨by rw [faHem_oxides]; simp [faHem], by rw [faHem_oxides]; simp [faHem]⟩, if_pos (by rw [x0]; norm_num)],
      ?_, ?_, ?_⟩
    · show solution _ _ 0 * weight _ 0 / -(solution _ _ 0 * 10) = _
      rw [x0]; simp [weight]
    · show solution _ _ 1 * weight _ 1 / -(solution _ _ 0 * 10) = _
      rw [x0, x1]; simp [weight, faHem]; field_simp
    · show solution _ _ 2 * weight _ 2 / -(solution _ _ 0 * 10) = _
      rw [x0, x2]; simp [weight, faHem]; field_simp

/-! ### Examples for the reaction -/

/-- Wuestite, hematite and magnetite, one mole each: more components than oxides. -/
def wuHemMt : Assemblage where
  nc := 2
  bulk := fun _ => 1
  feo := 1
  fe2o3 := 0
  cols := [(0, 0), (1, 0), (2, 0)]
  amount := fun _ => 1
  ox := fun r o => if r = 0 then (if o = 1 then 1 else 0) else if r = 1 then (if o = 0 then 1 else 0) else 1

/-- The decomposition of its transposed matrix. -/
def wuHemMtSvd : Svd where
  U := fun j q => if q = 0 then (if j = 0 then 1 else 0)
    else if q = 1 then (if j = 0 then 0 else if j = 3 then 2 / Real.sqrt 6 else 1 / Real.sqrt 6)
    else if q = 2 then (if j = 1 then -1 / Real.sqrt 2 else if j = 2 then 1 / Real.sqrt 2 else 0)
    else (if j = 0 then 0 else if j = 3 then -1 / Real.sqrt 3 else 1 / Real.sqrt 3)
  S := fun q => if q = 0 then 10 else if q = 1 then Real.sqrt 3 else if q = 2 then 1 else 0
  V := fun i q => if q = 0 then (if i = 0 then 1 else 0)
    else if q = 1 then (if i = 1 then 1 / Real.sqrt 2 else if i = 2 then 1 / Real.sqrt 2 else 0)
    else if q = 2 then (if i = 1 then 1 / Real.sqrt 2 else if i = 2 then -1 / Real.sqrt 2 else 0)
    else (if i = 3 then 1 else 0)

theorem wuHemMt_oxides : oxides wuHemMt = [0, 1] := by
  simp [oxides, wuHemMt, List.range_succ]

theorem wuHemMt_svd : Decomposed wuHemMt wuHemMtSvd := by
  have s2 : Real.sqrt 2 ^ 2 = 2 := Real.sq_sqrt (by norm_num)
  have s3 : Real.sqrt 3 ^ 2 = 3 := Real.sq_sqrt (by norm_num)
  have p2 : Real.sqrt 2 ≠ 0 := (Real.sqrt_pos.2 (by norm_num)).ne'
  have p3 : 1 ≤ Real.sqrt 3 := Real.one_le_sqrt.2 (by norm_num)
  have s6 : Real.sqrt 6 = Real.sqrt 2 * Real.sqrt 3 := by rw [← Real.sqrt_mul (by norm_num)]; norm_num
  have hr : nRow wuHemMt = 3 := by rw [nRow, wuHemMt_oxides]; rfl
  have hc : nCol wuHemMt = 4 := rfl
  have c4 : ∀ j, j < 4 → j = 0 ∨ j = 1 ∨ j = 2 ∨ j = 3 := fun j _ => by omega
  constructor
  · intro q _
    simp only [wuHemMtSvd]
    split
    · right; norm_num
    · split
      · right; linarith [show (1 : ℝ) / 10 ^ 8 ≤ 1 by norm_num]
      · split
        · right; norm_num
        · left; rfl
  · rw [hr, hc, if_neg (by norm_num)]
    refine ⟨?_, ?_, ?_, ?_⟩
    · intro j hj k hk
      unfold wide stoich weight
      rw [wuHemMt_oxides, hr]
      rcases c4 j hj with rfl | rfl | rfl | rfl <;> rcases c4 k hk with rfl | rfl | rfl | rfl <;>
        simp [sum_range_succ, wuHemMtSvd, wuHemMt, s6] <;> field_simp <;> (try rw [s2]) <;> norm_num
    · intro q hq q' hq'
      rcases c4 q hq with rfl | rfl | rfl | rfl <;> rcases c4 q' hq' with rfl | rfl | rfl | rfl <;>
        simp [sum_range_succ, wuHemMtSvd, s6] <;> field_simp <;> (try rw [s2]) <;> (try rw [s3]) <;> norm_num
    · intro q hq q' hq'
      rcases c4 q hq with rfl | rfl | rfl | rfl <;> rcases c4 q' hq' with rfl | rfl | rfl | rfl <;>
        simp [sum_range_succ, wuHemMtSvd] <;> field_simp <;> (try rw [s2]) <;> norm_num
    · intro q _
      simp only [wuHemMtSvd]
      split
      · norm_num
      · split
        · positivity
        · split <;> norm_num

theorem wuHemMt_sound : Sound wuHemMt :=
  ⟨by simp [wuHemMt], by simp [wuHemMt], fun _ _ => one_ne_zero, fun _ _ _ _ _ => one_ne_zero⟩

theorem wuHemMt_balances : ∃ nu, Balances wuHemMt nu := by
  refine ⟨fun j => if j = 0 then -1 else if j = 1 then -4 else if j = 2 then 2 else 0, by simp, fun o ho => ?_⟩
  have : o = 0 ∨ o = 1 := by simp only [wuHemMt] at ho; omega
  rcases this with rfl | rfl <;> simp [wuHemMt, wanted, sum_range_succ]

/-- All hypotheses of `C75_reaction` and `C75_memory` hold for it, with more components than oxides. -/
example : ∃ nu, (call wuHemMt wuHemMtSvd (after [(wuHemMt, wuHemMtSvd)] none)).1 = some nu ∧ Balances wuHemMt nu := by
  refine C75_memory [(wuHemMt, wuHemMtSvd)] ?_ wuHemMt_sound wuHemMt_svd wuHemMt_balances
  intro p hp
  rw [List.mem_singleton] at hp
  subst hp
  exact ⟨⟨rfl, rfl, rfl, rfl⟩, wuHemMt_sound, wuHemMt_svd, wuHemMt_balances⟩

end

end Magma.Engine.SubO2
