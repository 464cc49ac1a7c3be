import Mathlib.Algebra.BigOperators.Fin
import Mathlib.Algebra.BigOperators.Field
import Mathlib.Algebra.Order.BigOperators.Ring.Finset
import Mathlib.Algebra.Order.Archimedean.Basic
import Mathlib.Algebra.Order.Field.Basic
import Mathlib.Order.Filter.AtTopBot.Archimedean
import Mathlib.Tactic.Ring
import Mathlib.Tactic.Linarith
import Mathlib.Tactic.FieldSimp
import Mathlib.Tactic.Positivity

/-!
Variable metric minimiser `vmmin` (/repo/sources/nash.c 209-280), used to separate coexisting phases
(check_coexisting_liquids.c 219, check_coexisting_solids.c).

Simplifications: `double` is an ordered field `K` (exact arithmetic); allocation and `funcount` are left out; a
value of the objective for which `notcomp` is set is `none` (its numerical value is not used). The inner `do ... while`
has no bound in the code: the model gives it a budget `N` of trial points and returns `none` when it is used up;
`C20_terminates` shows that some budget suffices for every positive `reltest`.
-/

namespace Magma.Num.Vmmin

open Finset

variable {K : Type*} [Field K] [LinearOrder K] [IsStrictOrderedRing K] {n : ℕ}

/-- Inner product, the accumulation loops of nash.c 241-244, 261-262, 264-267. -/
def dot (u v : Fin n → K) : K := ∑ i, u i * v i

/-- Matrix times vector, the `j` loops of nash.c 242 and 265. -/
def mulv (B : Fin n → Fin n → K) (v : Fin n → K) : Fin n → K := fun i => ∑ j, B i j * v j

/-- Unit matrix, nash.c 239. -/
def one : Fin n → Fin n → K := fun i j => if i = j then 1 else 0

/-- Local variables that live across iterations of the outer loop, nash.c 217-231. -/
structure St (K : Type*) (n : ℕ) where
  B : Fin n → Fin n → K
  b : Fin n → K
  g : Fin n → K
  fmin : K
  ilast : ℕ
  grad : ℕ
  /-- `count` when the loop condition is evaluated -/
  count : ℕ

/-- The problem: objective with computability flag, gradient routine, tolerance. -/
structure Problem (K : Type*) (n : ℕ) where
  f : (Fin n → K) → Option K
  gr : (Fin n → K) → Fin n → K
  reltest : K

/-- Outcome of the line search loop. -/
inductive Res (K : Type*) (n : ℕ) where
  /-- `count == n`: every component moved by less than `reltest` -/
  | stop (b : Fin n → K)
  /-- `accpoint` -/
  | acc (b : Fin n → K) (f : K) (sl : K) (count : ℕ)

/-- `count` of nash.c 248-251. -/
def countClose (P : Problem K n) (X b : Fin n → K) : ℕ :=
  (univ.filter fun i => |X i - b i| < P.reltest).card

/-- Line search, nash.c 247-257; at most `N` trial points. -/
def search (P : Problem K n) (X t : Fin n → K) (gp F : K) : ℕ → K → Option (Res K n)
  | 0, _ => none
  | N + 1, sl =>
    let b := fun i => X i + sl * t i
    let count := countClose P X b
    if count < n then
      match P.f b with
      | some f => if f ≤ F + gp * sl * (1 / 10000) then some (.acc b f sl count) else search P X t gp F N (sl * (1 / 5))
      | none => search P X t gp F N (sl * (1 / 5))
    else some (.stop b)

/-- Metric update, nash.c 263-270, with the step `t` and gradient change `c`, when `D1 > 0`. -/
def update (B : Fin n → Fin n → K) (t c : Fin n → K) : Fin n → Fin n → K :=
  let X := mulv B c
  let D1 := dot t c
  let D2 := 1 + dot X c / D1
  fun i j => B i j - (t i * X j + X i * t j - D2 * t i * t j) / D1

/-- Metric used in an iteration, nash.c 238-239. -/
def metric (s : St K n) : Fin n → Fin n → K := if s.ilast = s.grad then one else s.B

/-- Search direction, nash.c 241-243. -/
def direction (s : St K n) : Fin n → K := fun i => -mulv (metric s) s.g i

/-- Body of the outer loop, nash.c 238-275. -/
def iter (P : Problem K n) (N : ℕ) (s : St K n) : Option (St K n) :=
  let B := metric s
  let t := direction s
  let gp := dot t s.g
  if gp < 0 then
    match search P s.b t gp s.fmin N 1 with
    | none => none
    | some (.stop b) =>
      if s.ilast < s.grad then some { s with B := B, b := b, count := 0, ilast := s.grad }
      else some { s with B := B, b := b, count := n }
    | some (.acc b f sl count) =>
      let g' := P.gr b
      let t' := fun i => t i * sl
      let c' := fun i => g' i - s.g i
      if dot t' c' > 0 then
        some { B := update B t' c', b := b, g := g', fmin := f, ilast := s.ilast, grad := s.grad + 1, count := count }
      else some { B := B, b := b, g := g', fmin := f, ilast := s.grad + 1, grad := s.grad + 1, count := count }
  else some { s with B := B, count := 0, ilast := s.grad }

inductive Mode where
  | success
  | badInitial
  deriving DecidableEq

/-- Outer loop, nash.c 233-276, with `k` iterations left before `iterations > 10000`. -/
def loop (P : Problem K n) (N : ℕ) : ℕ → St K n → Option (Mode × St K n)
  | 0, s => some (.badInitial, s)
  | k + 1, s =>
    match iter P N s with
    | none => none
    | some s' => if s'.count ≠ n ∨ s'.ilast ≠ s'.grad then loop P N k s' else some (.success, s')

/-- State before the first iteration, nash.c 222-231 (`B` is not initialised there; it is set in the first
iteration because `ilast == gradcount`). -/
def start (P : Problem K n) (b : Fin n → K) (f : K) : St K n :=
  { B := one, b := b, g := P.gr b, fmin := f, ilast := 1, grad := 1, count := 0 }

/-- nash.c 209-280; `none` in the first component of the outcome is a start where the objective is not
computable (nash.c 220), where nothing is changed. -/
def vmmin (P : Problem K n) (N : ℕ) (b : Fin n → K) : Option (Mode × Option (St K n)) :=
  match P.f b with
  | none => some (.badInitial, none)
  | some f => (loop P N 10000 (start P b f)).map fun r => (r.1, some r.2)

/-! ### Specification -/

/-- States seen at the head of the outer loop. -/
inductive Reach (P : Problem K n) (N : ℕ) (b : Fin n → K) : St K n → Prop
  | start {f} (h : P.f b = some f) : Reach P N b (start P b f)
  | step {s s'} (h : Reach P N b s) (hi : iter P N s = some s') : Reach P N b s'

def Symmetric (B : Fin n → Fin n → K) : Prop := ∀ i j, B i j = B j i

def PosDef (B : Fin n → Fin n → K) : Prop := ∀ z : Fin n → K, z ≠ 0 → 0 < dot z (mulv B z)

/-! ### Linear algebra -/

theorem dot_comm (u v : Fin n → K) : dot u v = dot v u := by
  unfold dot; exact sum_congr rfl fun i _ => mul_comm _ _

theorem dot_self_pos {z : Fin n → K} (h : z ≠ 0) : 0 < dot z z := by
  obtain ⟨i, hi⟩ := Function.ne_iff.mp h
  have h1 : 0 < z i * z i := mul_self_pos.mpr hi
  exact lt_of_lt_of_le h1 (single_le_sum (f := fun i => z i * z i) (fun j _ => mul_self_nonneg _) (mem_univ i))

theorem mulv_one (z : Fin n → K) : mulv one z = z := by
  funext i; simp [mulv, one]

theorem posDef_one : PosDef (one : Fin n → Fin n → K) := fun z hz => by
  rw [mulv_one]; exact dot_self_pos hz

theorem symmetric_one : Symmetric (one : Fin n → Fin n → K) := fun i j => by
  unfold one; simp only [eq_comm]

theorem dot_mulv_comm {B : Fin n → Fin n → K} (h : Symmetric B) (u v : Fin n → K) :
    dot u (mulv B v) = dot v (mulv B u) := by
  unfold dot mulv
  simp only [mul_sum]
  rw [sum_comm]
  refine sum_congr rfl fun i _ => sum_congr rfl fun j _ => ?_
  rw [h i j]; ring

theorem mulv_update (B : Fin n → Fin n → K) (t c z : Fin n → K) (i : Fin n) :
    mulv (update B t c) z i = mulv B z i - (t i * dot (mulv B c) z + mulv B c i * dot t z
      - (1 + dot (mulv B c) c / dot t c) * t i * dot t z) / dot t c := by
  have e : mulv (update B t c) z i = ∑ j, (B i j - (t i * mulv B c j + mulv B c i * t j
      - (1 + dot (mulv B c) c / dot t c) * t i * t j) / dot t c) * z j := rfl
  rw [e]
  generalize hX : mulv B c = X
  generalize 1 + dot X c / dot t c = D2
  have : ∀ j, (B i j - (t i * X j + X i * t j - D2 * t i * t j) / dot t c) * z j =
      B i j * z j - (t i * (X j * z j) + X i * (t j * z j) - D2 * t i * (t j * z j)) / dot t c := by
    intro j; ring
  simp only [this]
  rw [sum_sub_distrib, ← sum_div, sum_sub_distrib, sum_add_distrib, ← mul_sum, ← mul_sum, ← mul_sum]
  rfl

theorem symmetric_update {B : Fin n → Fin n → K} (h : Symmetric B) (t c : Fin n → K) :
    Symmetric (update B t c) := fun i j => by
  simp only [update, h i j]; ring

/-- The curvature identity behind positive definiteness. -/
theorem quad_update {B : Fin n → Fin n → K} (hs : Symmetric B) (t c z : Fin n → K) (hD : dot t c ≠ 0) :
    dot z (mulv (update B t c) z) =
      dot (fun i => z i - dot t z / dot t c * c i) (mulv B fun i => z i - dot t z / dot t c * c i)
        + dot t z ^ 2 / dot t c := by
  set a := dot t z / dot t c
  have e1 : mulv B (fun i => z i - a * c i) = fun i => mulv B z i - a * mulv B c i := by
    funext i
    unfold mulv
    rw [mul_sum, ← sum_sub_distrib]
    exact sum_congr rfl fun j _ => by ring
  have e2 : ∀ u v : Fin n → K, dot (fun i => z i - a * c i) (fun i => u i - a * v i) =
      dot z u - a * dot c u - a * dot z v + a ^ 2 * dot c v := by
    intro u v
    unfold dot
    simp only [mul_sum, ← sum_sub_distrib, ← sum_add_distrib]
    exact sum_congr rfl fun i _ => by ring
  rw [e1, e2]
  have e3 : dot z (mulv (update B t c) z) = dot z (mulv B z) - (dot t z * dot (mulv B c) z + dot (mulv B c) z * dot t z
      - (1 + dot (mulv B c) c / dot t c) * dot t z * dot t z) / dot t c := by
    unfold dot at *
    simp only [mulv_update, dot]
    have : ∀ i, z i * (mulv B z i - (t i * ∑ j, mulv B c j * z j + mulv B c i * ∑ j, t j * z j -
        (1 + (∑ j, mulv B c j * c j) / ∑ j, t j * c j) * t i * ∑ j, t j * z j) / ∑ j, t j * c j) =
      z i * mulv B z i - ((t i * z i) * ∑ j, mulv B c j * z j + (mulv B c i * z i) * ∑ j, t j * z j -
        (1 + (∑ j, mulv B c j * c j) / ∑ j, t j * c j) * (t i * z i) * ∑ j, t j * z j) / ∑ j, t j * c j := by
      intro i; ring
    simp only [this]
    rw [sum_sub_distrib, ← sum_div, sum_sub_distrib, sum_add_distrib, ← sum_mul, ← sum_mul, ← sum_mul, ← mul_sum]
  rw [e3, dot_mulv_comm hs c z, dot_comm (mulv B c) z, dot_comm (mulv B c) c]
  simp only [a]
  field_simp
  ring

theorem posDef_update {B : Fin n → Fin n → K} (hs : Symmetric B) (hp : PosDef B) (t c : Fin n → K)
    (hD : 0 < dot t c) : PosDef (update B t c) := by
  intro z hz
  rw [quad_update hs t c z hD.ne']
  by_cases hw : (fun i => z i - dot t z / dot t c * c i) = 0
  · have ht : dot t z ≠ 0 := by
      intro h0
      apply hz
      funext i
      have := congrFun hw i
      simpa [h0] using this
    have h1 : 0 < dot t z ^ 2 / dot t c := by positivity
    have h2 : dot (fun i => z i - dot t z / dot t c * c i) (mulv B fun i => z i - dot t z / dot t c * c i) = 0 := by
      rw [hw]; simp [dot]
    rw [h2]; linarith
  · have h1 := hp _ hw
    have h2 : 0 ≤ dot t z ^ 2 / dot t c := by positivity
    linarith

/-! ### Theorems -/

theorem search_acc {P : Problem K n} {X t : Fin n → K} {gp F : K} {N : ℕ} {sl : K} {b f sl' cnt} (hs : 0 < sl)
    (h : search P X t gp F N sl = some (.acc b f sl' cnt)) :
    0 < sl' ∧ f ≤ F + gp * sl' * (1 / 10000) ∧ P.f b = some f ∧ (b = fun i => X i + sl' * t i) ∧ cnt < n := by
  induction N generalizing sl with
  | zero => simp [search] at h
  | succ N ih =>
    have h5 : 0 < sl * (1 / 5) := by positivity
    unfold search at h
    simp only at h
    split_ifs at h with hc
    · split at h
      · rename_i f' hf
        split_ifs at h with ha
        · injection h with h; injection h with h1 h2 h3 h4
          subst h1 h2 h3 h4
          exact ⟨hs, ha, hf, rfl, hc⟩
        · exact ih h5 h
      · exact ih h5 h
    · simp at h

theorem search_stop {P : Problem K n} {X t : Fin n → K} {gp F : K} {N : ℕ} {sl : K} {b} (hs : 0 < sl)
    (h : search P X t gp F N sl = some (.stop b)) :
    (∀ i, |X i - b i| < P.reltest) ∧ ∃ sl', 0 < sl' ∧ b = fun i => X i + sl' * t i := by
  induction N generalizing sl with
  | zero => simp [search] at h
  | succ N ih =>
    have h5 : 0 < sl * (1 / 5) := by positivity
    unfold search at h
    simp only at h
    split_ifs at h with hc
    · split at h
      · split_ifs at h
        · simp at h
        · exact ih h5 h
      · exact ih h5 h
    · injection h with h; injection h with h1
      subst h1
      refine ⟨?_, sl, hs, rfl⟩
      have h1 : (univ.filter fun i => |X i - (X i + sl * t i)| < P.reltest) = univ := by
        apply eq_univ_of_card
        refine le_antisymm ?_ ?_
        · exact card_le_univ _
        · rw [Fintype.card_fin]; exact not_lt.mp hc
      intro i
      have := mem_univ i
      rw [← h1] at this
      exact (mem_filter.mp this).2

/-- What one iteration can do. -/
theorem iter_cases {P : Problem K n} {N : ℕ} {s s' : St K n} (h : iter P N s = some s') :
    (dot (direction s) s.g < 0 ∧ (∃ b, (∀ i, |s.b i - b i| < P.reltest) ∧
        (∃ sl, 0 < sl ∧ b = fun i => s.b i + sl * direction s i) ∧
        ((s.ilast < s.grad ∧ s' = { s with B := metric s, b := b, count := 0, ilast := s.grad }) ∨
         (¬ s.ilast < s.grad ∧ s' = { s with B := metric s, b := b, count := n })))) ∨
    (dot (direction s) s.g < 0 ∧ ∃ b f sl cnt, 0 < sl ∧ f ≤ s.fmin + dot (direction s) s.g * sl * (1 / 10000) ∧
        P.f b = some f ∧ (b = fun i => s.b i + sl * direction s i) ∧ cnt < n ∧
        ((0 < dot (fun i => direction s i * sl) (fun i => P.gr b i - s.g i) ∧
          s' = ⟨update (metric s) (fun i => direction s i * sl) (fun i => P.gr b i - s.g i), b, P.gr b, f, s.ilast,
            s.grad + 1, cnt⟩) ∨
         (s' = ⟨metric s, b, P.gr b, f, s.grad + 1, s.grad + 1, cnt⟩))) ∨
    (¬ dot (direction s) s.g < 0 ∧ s' = { s with B := metric s, count := 0, ilast := s.grad }) := by
  unfold iter at h
  by_cases h1 : dot (direction s) s.g < 0
  · simp only [h1, if_true] at h
    split at h
    · simp at h
    · rename_i b hb
      obtain ⟨h2, h3⟩ := search_stop one_pos hb
      split_ifs at h with h4
      · injection h with h
        exact Or.inl ⟨h1, b, h2, h3, Or.inl ⟨h4, h.symm⟩⟩
      · injection h with h
        exact Or.inl ⟨h1, b, h2, h3, Or.inr ⟨h4, h.symm⟩⟩
    · rename_i b f sl cnt hb
      obtain ⟨h2, h3, h4, h5, h6⟩ := search_acc one_pos hb
      split_ifs at h with h7
      · injection h with h
        exact Or.inr (Or.inl ⟨h1, b, f, sl, cnt, h2, h3, h4, h5, h6, Or.inl ⟨h7, h.symm⟩⟩)
      · injection h with h
        exact Or.inr (Or.inl ⟨h1, b, f, sl, cnt, h2, h3, h4, h5, h6, Or.inr h.symm⟩)
  · simp only [h1, if_false] at h
    injection h with h
    exact Or.inr (Or.inr ⟨h1, h.symm⟩)

/-- **C20.** In every state the loop reaches, the metric is symmetric and positive definite. -/
theorem C20_metric (P : Problem K n) (N : ℕ) (b : Fin n → K) (s : St K n) (h : Reach P N b s) :
    Symmetric s.B ∧ PosDef s.B ∧ s.ilast ≤ s.grad := by
  induction h with
  | start _ => exact ⟨symmetric_one, posDef_one, le_refl _⟩
  | step _ hi ih =>
    rename_i s s' _
    have hm : Symmetric (metric s) ∧ PosDef (metric s) := by
      unfold metric
      split_ifs
      · exact ⟨symmetric_one, posDef_one⟩
      · exact ⟨ih.1, ih.2.1⟩
    rcases iter_cases hi with ⟨_, b, _, _, h | h⟩ | ⟨_, b, f, sl, cnt, _, _, _, _, _, h | h⟩ | ⟨_, h⟩
    · rw [h.2]; exact ⟨hm.1, hm.2, le_refl _⟩
    · rw [h.2]; exact ⟨hm.1, hm.2, ih.2.2⟩
    · rw [h.2]; exact ⟨symmetric_update hm.1 _ _, posDef_update hm.1 hm.2 _ _ h.1, Nat.le_succ_of_le ih.2.2⟩
    · rw [h]; exact ⟨hm.1, hm.2, le_refl _⟩
    · rw [h]; exact ⟨hm.1, hm.2, le_refl _⟩

theorem metric_reach {P : Problem K n} {N : ℕ} {b : Fin n → K} {s : St K n} (h : Reach P N b s) :
    Symmetric (metric s) ∧ PosDef (metric s) := by
  have := C20_metric P N b s h
  unfold metric
  split_ifs
  · exact ⟨symmetric_one, posDef_one⟩
  · exact ⟨this.1, this.2.1⟩

theorem gp_eq (s : St K n) : dot (direction s) s.g = - dot s.g (mulv (metric s) s.g) := by
  unfold direction dot
  rw [← sum_neg_distrib]
  exact sum_congr rfl fun i _ => by ring

/-- **C20.** The search direction is a descent direction exactly when the stored gradient is not zero. -/
theorem C20_descent_direction (P : Problem K n) (N : ℕ) (b : Fin n → K) (s : St K n) (h : Reach P N b s) :
    dot (direction s) s.g < 0 ↔ s.g ≠ 0 := by
  rw [gp_eq]
  constructor
  · intro h1 h2
    rw [h2] at h1
    simp [dot] at h1
  · intro h1
    have := (metric_reach h).2 _ h1
    linarith

/-- **C20.** An iteration never raises the stored minimum; when it moves to an accepted point the minimum is the
objective there and is strictly smaller, by the sufficient decrease condition. -/
theorem C20_descends (P : Problem K n) (N : ℕ) (s s' : St K n) (h : iter P N s = some s') :
    s'.fmin ≤ s.fmin ∧
      (s'.grad ≠ s.grad → s'.fmin < s.fmin ∧ P.f s'.b = some s'.fmin ∧ s'.g = P.gr s'.b ∧ s'.grad = s.grad + 1) := by
  rcases iter_cases h with ⟨_, b, _, _, h | h⟩ | ⟨h0, b, f, sl, cnt, h1, h2, h3, _, _, h | h⟩ | ⟨_, h⟩
  · rw [h.2]; exact ⟨le_refl _, fun h => absurd rfl h⟩
  · rw [h.2]; exact ⟨le_refl _, fun h => absurd rfl h⟩
  · have : dot (direction s) s.g * sl * (1 / 10000) < 0 := by
      have := mul_pos (neg_pos.mpr h0) h1
      nlinarith
    rw [h.2]; exact ⟨by simp only; linarith, fun _ => ⟨by simp only; linarith, h3, rfl, rfl⟩⟩
  · have : dot (direction s) s.g * sl * (1 / 10000) < 0 := by
      have := mul_pos (neg_pos.mpr h0) h1
      nlinarith
    rw [h]; exact ⟨by simp only; linarith, fun _ => ⟨by simp only; linarith, h3, rfl, rfl⟩⟩
  · rw [h]; exact ⟨le_refl _, fun h => absurd rfl h⟩

/-- **C20.** When an accepted step updates the metric, the new metric maps the change of the gradient to the
step (secant condition). -/
theorem C20_secant (P : Problem K n) (N : ℕ) (s s' : St K n) (h : iter P N s = some s')
    (hu : s'.grad ≠ s.grad) (hl : s'.ilast ≠ s'.grad) :
    mulv s'.B (fun i => s'.g i - s.g i) = fun i => s'.b i - s.b i := by
  rcases iter_cases h with ⟨_, b, _, _, h | h⟩ | ⟨h0, b, f, sl, cnt, h1, h2, h3, hb, _, h | h⟩ | ⟨_, h⟩
  · rw [h.2] at hu; exact absurd rfl hu
  · rw [h.2] at hu; exact absurd rfl hu
  · obtain ⟨hD, h⟩ := h
    rw [h]
    simp only
    funext i
    rw [mulv_update]
    have hD' := hD.ne'
    have hbi : b i - s.b i = direction s i * sl := by rw [hb]; ring
    rw [hbi]
    generalize mulv (metric s) (fun i => P.gr b i - s.g i) = X at hD' ⊢
    generalize dot X (fun i => P.gr b i - s.g i) = q at hD' ⊢
    generalize dot (fun i => direction s i * sl) (fun i => P.gr b i - s.g i) = D at hD' ⊢
    field_simp
    ring
  · rw [h] at hl; exact absurd rfl hl
  · rw [h] at hu; exact absurd rfl hu

/-- All states reached from `s` by complete iterations. -/
theorem loop_reach {P : Problem K n} {N k : ℕ} {b0 : Fin n → K} {s : St K n} {m s'} (hr : Reach P N b0 s)
    (h : loop P N k s = some (m, s')) :
    Reach P N b0 s' ∧ s'.fmin ≤ s.fmin ∧
    (m = .success → ∃ s1, Reach P N b0 s1 ∧ iter P N s1 = some s' ∧ s'.count = n ∧ s'.ilast = s'.grad) := by
  induction k generalizing s with
  | zero =>
    simp only [loop, Option.some.injEq, Prod.mk.injEq] at h
    obtain ⟨rfl, rfl⟩ := h
    exact ⟨hr, le_refl _, fun h => by simp at h⟩
  | succ k ih =>
    unfold loop at h
    split at h
    · simp at h
    · rename_i s1 h1
      have hr1 : Reach P N b0 s1 := .step hr h1
      have hd := (C20_descends P N s s1 h1).1
      split_ifs at h with h2
      · obtain ⟨a, b, c⟩ := ih hr1 h
        exact ⟨a, le_trans b hd, c⟩
      · simp only [Option.some.injEq, Prod.mk.injEq] at h
        obtain ⟨rfl, rfl⟩ := h
        rw [not_or, not_not, not_not] at h2
        exact ⟨hr1, hd, fun _ => ⟨s, hr, h1, h2⟩⟩

/-- **C20.** The minimum returned is not above the value at the start. -/
theorem C20_result_below_start (P : Problem K n) (N : ℕ) (b : Fin n → K) (f : K) (hf : P.f b = some f) (m : Mode)
    (s : St K n) (h : vmmin P N b = some (m, some s)) : s.fmin ≤ f ∧ ∃ b', P.f b' = some s.fmin := by
  unfold vmmin at h
  rw [hf] at h
  simp only [Option.map_eq_some_iff] at h
  obtain ⟨⟨m', s1⟩, h1, h2⟩ := h
  simp only [Prod.mk.injEq, Option.some.injEq] at h2
  obtain ⟨rfl, rfl⟩ := h2
  obtain ⟨hr, h3, _⟩ := loop_reach (b0 := b) (.start hf) h1
  refine ⟨h3, ?_⟩
  clear h1 h3
  rename_i hcl
  clear hcl
  induction hr with
  | start h => exact ⟨b, h⟩
  | @step s s' _ hi ih =>
    by_cases hg : s'.grad = s.grad
    · obtain ⟨b', h'⟩ := ih
      refine ⟨b', ?_⟩
      rcases iter_cases hi with ⟨_, b, _, _, h | h⟩ | ⟨h0, b, f, sl, cnt, h1, h2, h3, hb, _, h | h⟩ | ⟨_, h⟩
      · rw [h.2]; exact h'
      · rw [h.2]; exact h'
      · rw [h.2] at hg; simp at hg
      · rw [h] at hg; simp at hg
      · rw [h]; exact h'
    · exact ⟨s'.b, ((C20_descends P N s s' hi).2 hg).2.1⟩

/-- **C20.** Success (for at least one parameter) means that the search along the steepest descent direction, from
the point stored before, was cut down to a step below the tolerance in every component without meeting the decrease
condition. -/
theorem C20_success (P : Problem K n) (N : ℕ) (hn : 0 < n) (b : Fin n → K) (s : St K n)
    (h : vmmin P N b = some (.success, some s)) :
    ∃ (x : Fin n → K) (sl : K), 0 < sl ∧ (s.b = fun i => x i - sl * s.g i) ∧ (∀ i, |x i - s.b i| < P.reltest) ∧ s.g ≠ 0 := by
  unfold vmmin at h
  split at h
  · simp at h
  · rename_i f hf
    simp only [Option.map_eq_some_iff] at h
    obtain ⟨⟨m', s1⟩, h1, h2⟩ := h
    simp only [Prod.mk.injEq, Option.some.injEq] at h2
    obtain ⟨rfl, rfl⟩ := h2
    obtain ⟨_, _, h3⟩ := loop_reach (b0 := b) (.start hf) h1
    obtain ⟨s0, hr, hi, hc, hl⟩ := h3 rfl
    have hle := (C20_metric P N b s0 hr).2.2
    have hg := C20_descent_direction P N b s0 hr
    rcases iter_cases hi with ⟨h0, b1, hb, ⟨sl, hsl, hbe⟩, h | h⟩ | ⟨h0, b1, f, sl, cnt, _, _, _, _, hcn, h | h⟩ | ⟨_, h⟩
    · rw [h.2] at hc; simp only at hc; omega
    · obtain ⟨h4, h⟩ := h
      have e : s0.ilast = s0.grad := le_antisymm hle (not_lt.mp h4)
      refine ⟨s0.b, sl, hsl, ?_, ?_, ?_⟩
      · rw [h]
        simp only
        rw [hbe]
        funext i
        simp only [direction, metric, e, if_true, mulv_one]
        ring
      · rw [h]; exact hb
      · rw [h]; exact hg.mp h0
    · rw [h.2] at hc; simp only at hc; omega
    · rw [h] at hc; simp only at hc; omega
    · rw [h] at hc; simp only at hc; omega

/-- The stored point is one that has been evaluated, or is within the tolerance of one and the metric has just been
reset. -/
def Near (P : Problem K n) (s : St K n) : Prop :=
  (P.f s.b = some s.fmin ∧ P.gr s.b = s.g) ∨
  (s.ilast = s.grad ∧ ∃ x, P.f x = some s.fmin ∧ P.gr x = s.g ∧ ∀ i, |x i - s.b i| < P.reltest)

/-- **C20.** The parameters returned with a success are within twice the tolerance of a point that was evaluated: the
minimum and the gradient returned are the objective and its gradient there. -/
theorem C20_success_near (P : Problem K n) (N : ℕ) (hr : 0 < P.reltest) (b : Fin n → K) (s : St K n)
    (h : vmmin P N b = some (.success, some s)) :
    ∃ x : Fin n → K, P.f x = some s.fmin ∧ P.gr x = s.g ∧ ∀ i, |x i - s.b i| < 2 * P.reltest := by
  have weak : ∀ s : St K n, Near P s → ∃ x, P.f x = some s.fmin ∧ P.gr x = s.g ∧ ∀ i, |x i - s.b i| < P.reltest := by
    rintro s (⟨h1, h2⟩ | ⟨_, h⟩)
    · exact ⟨s.b, h1, h2, fun i => by simpa using hr⟩
    · exact h
  have key : ∀ k (s : St K n), s.ilast ≤ s.grad → Near P s → ∀ s', loop P N k s = some (.success, s') →
      ∃ x : Fin n → K, P.f x = some s'.fmin ∧ P.gr x = s'.g ∧ ∀ i, |x i - s'.b i| < 2 * P.reltest := by
    intro k
    induction k with
    | zero => intro s _ _ s' h; simp [loop] at h
    | succ k ih =>
      intro s hle hs s' h
      obtain ⟨x, h1, h2, h3⟩ := weak s hs
      unfold loop at h
      split at h
      · simp at h
      · rename_i s1 hi
        have far : ∀ c : Fin n → K, (∀ i, |s.b i - c i| < P.reltest) → ∀ i, |x i - c i| < 2 * P.reltest := by
          intro c hc i
          have := abs_sub_le (x i) (s.b i) (c i)
          linarith [hc i, h3 i]
        split_ifs at h with h4
        · refine ih s1 ?_ ?_ s' h
          · rcases iter_cases hi with ⟨_, c, hc, _, h5 | h5⟩ | ⟨_, c, f, sl, cnt, _, _, hf, _, _, h5 | h5⟩ | ⟨_, h5⟩
            · rw [h5.2]
            · rw [h5.2]; exact hle
            · rw [h5.2]; exact Nat.le_succ_of_le hle
            · rw [h5]
            · rw [h5]
          rcases iter_cases hi with ⟨_, c, hc, _, h5 | h5⟩ | ⟨_, c, f, sl, cnt, _, _, hf, _, _, h5 | h5⟩ | ⟨_, h5⟩
          · rw [h5.2]
            rcases hs with ⟨h6, h7⟩ | ⟨h6, _⟩
            · exact Or.inr ⟨rfl, s.b, h6, h7, hc⟩
            · exact absurd h6 h5.1.ne
          · rw [h5.2] at h4
            exact absurd h4 (by simp [le_antisymm hle (not_lt.mp h5.1)])
          · rw [h5.2]; exact Or.inl ⟨hf, rfl⟩
          · rw [h5]; exact Or.inl ⟨hf, rfl⟩
          · rw [h5]
            rcases hs with h6 | ⟨_, h6⟩
            · exact Or.inl h6
            · exact Or.inr ⟨rfl, h6⟩
        · simp only [Option.some.injEq, Prod.mk.injEq, true_and] at h
          subst h
          rcases iter_cases hi with ⟨_, c, hc, _, h5 | h5⟩ | ⟨_, c, f, sl, cnt, _, _, hf, _, _, h5 | h5⟩ | ⟨_, h5⟩
          · rw [h5.2]; exact ⟨x, h1, h2, far c hc⟩
          · rw [h5.2]; exact ⟨x, h1, h2, far c hc⟩
          · rw [h5.2]; exact ⟨c, hf, rfl, fun i => by simpa using hr⟩
          · rw [h5]; exact ⟨c, hf, rfl, fun i => by simpa using hr⟩
          · rw [h5]; exact ⟨x, h1, h2, fun i => by linarith [h3 i]⟩
  unfold vmmin at h
  split at h
  · simp at h
  · rename_i f hf
    simp only [Option.map_eq_some_iff] at h
    obtain ⟨⟨m', s1⟩, h1, h2⟩ := h
    simp only [Prod.mk.injEq, Option.some.injEq] at h2
    obtain ⟨rfl, rfl⟩ := h2
    exact key 10000 _ le_rfl (Or.inl ⟨hf, rfl⟩) _ h1

/-- **C20.** A point with exactly zero gradient is reported as a failure: from it the loop makes no move, runs out
of its 10000 iterations and returns the bad-initial-point code. -/
theorem C20_stationary_start_fails (P : Problem K n) (N : ℕ) (hn : 0 < n) (b : Fin n → K) (f : K)
    (hf : P.f b = some f) (hg : P.gr b = 0) :
    ∃ s, vmmin P N b = some (.badInitial, some s) ∧ s.b = b ∧ s.fmin = f := by
  have key : ∀ k (s : St K n), s.g = 0 → ∃ s', loop P N k s = some (.badInitial, s') ∧ s'.b = s.b ∧ s'.fmin = s.fmin := by
    intro k
    induction k with
    | zero => intro s _; exact ⟨s, rfl, rfl, rfl⟩
    | succ k ih =>
      intro s hs
      have hi : iter P N s = some { s with B := metric s, count := 0, ilast := s.grad } := by
        have : ¬ dot (direction s) s.g < 0 := by rw [hs]; simp [dot]
        unfold iter
        simp only [this, if_false]
      obtain ⟨s', h1, h2, h3⟩ := ih { s with B := metric s, count := 0, ilast := s.grad } hs
      refine ⟨s', ?_, h2, h3⟩
      unfold loop
      rw [hi]
      simp only
      rw [if_pos (Or.inl (by omega))]
      exact h1
  obtain ⟨s', h1, h2, h3⟩ := key 10000 (start P b f) hg
  refine ⟨s', ?_, h2, h3⟩
  unfold vmmin
  rw [hf]
  simp only [h1, Option.map_some]

/-- A larger budget does not change a finished line search. -/
theorem search_mono {P : Problem K n} {X t : Fin n → K} {gp F : K} {N M : ℕ} {sl : K} {r}
    (h : search P X t gp F N sl = some r) (hNM : N ≤ M) : search P X t gp F M sl = some r := by
  induction N generalizing sl M with
  | zero => simp [search] at h
  | succ N ih =>
    obtain ⟨M, rfl⟩ : ∃ M', M = M' + 1 := ⟨M - 1, by omega⟩
    unfold search at h ⊢
    simp only at h ⊢
    split_ifs at h ⊢ with hc
    · split at h
      · rename_i f hf
        split_ifs at h ⊢ with ha
        · exact h
        · exact ih h (by omega)
      · exact ih h (by omega)
    · exact h

theorem search_total [Archimedean K] (P : Problem K n) (hr : 0 < P.reltest) (X t : Fin n → K) (gp F : K) (sl : K)
    (hs : 0 < sl) : ∃ N r, search P X t gp F N sl = some r := by
  set T : K := ∑ i, |t i| with hTd
  have hT : ∀ i, |t i| ≤ T := fun i => single_le_sum (f := fun i => |t i|) (fun _ _ => abs_nonneg _) (mem_univ i)
  have hT0 : 0 < T + 1 := by
    have : 0 ≤ T := sum_nonneg fun _ _ => abs_nonneg _
    linarith
  have hstop : ∀ sl : K, 0 < sl → sl * (T + 1) < P.reltest → ∃ r, search P X t gp F 1 sl = some r := by
    intro sl hs h
    refine ⟨.stop fun i => X i + sl * t i, ?_⟩
    have hc : ¬ countClose P X (fun i => X i + sl * t i) < n := by
      unfold countClose
      have : (univ.filter fun i => |X i - (X i + sl * t i)| < P.reltest) = univ := by
        rw [filter_eq_self]
        intro i _
        have e : X i - (X i + sl * t i) = -(sl * t i) := by ring
        rw [e, abs_neg, abs_mul, abs_of_pos hs]
        have := mul_le_mul_of_nonneg_left (hT i) hs.le
        nlinarith
      rw [this, card_univ, Fintype.card_fin]
      exact lt_irrefl n
    unfold search
    simp only [hc, if_false]
  obtain ⟨k, hk⟩ : ∃ k : ℕ, sl * (1 / 5) ^ k * (T + 1) < P.reltest := by
    obtain ⟨k, hk⟩ := exists_pow_lt_of_lt_one (div_pos hr (mul_pos hs hT0)) (show (1 / 5 : K) < 1 by norm_num)
    refine ⟨k, ?_⟩
    rw [lt_div_iff₀ (mul_pos hs hT0)] at hk
    linarith
  induction k generalizing sl with
  | zero =>
    obtain ⟨r, h⟩ := hstop sl hs (by simpa using hk)
    exact ⟨1, r, h⟩
  | succ k ih =>
    obtain ⟨N, r, h⟩ := ih (sl * (1 / 5)) (by positivity) (by rw [pow_succ] at hk; linarith)
    by_cases hc : countClose P X (fun i => X i + sl * t i) < n
    · cases hf : P.f (fun i => X i + sl * t i) with
      | none => exact ⟨N + 1, r, by unfold search; simp only [hc, if_true, hf]; exact h⟩
      | some f =>
        by_cases ha : f ≤ F + gp * sl * (1 / 10000)
        · exact ⟨1, .acc _ f sl _, by unfold search; simp only [hc, if_true, hf, ha]; rfl⟩
        · exact ⟨N + 1, r, by unfold search; simp only [hc, if_true, hf, ha, if_false]; exact h⟩
    · exact ⟨1, .stop _, by unfold search; simp only [hc, if_false]; rfl⟩

theorem iter_mono {P : Problem K n} {N M : ℕ} {s s' : St K n} (h : iter P N s = some s') (hNM : N ≤ M) :
    iter P M s = some s' := by
  unfold iter at h ⊢
  by_cases h1 : dot (direction s) s.g < 0
  · simp only [h1, if_true] at h ⊢
    cases hs : search P s.b (direction s) (dot (direction s) s.g) s.fmin N 1 with
    | none => rw [hs] at h; simp at h
    | some r =>
      rw [hs] at h
      rw [search_mono hs hNM]
      exact h
  · simp only [h1, if_false] at h ⊢
    exact h

theorem loop_mono {P : Problem K n} {N M k : ℕ} {s : St K n} {r} (h : loop P N k s = some r) (hNM : N ≤ M) :
    loop P M k s = some r := by
  induction k generalizing s with
  | zero => exact h
  | succ k ih =>
    unfold loop at h ⊢
    cases hi : iter P N s with
    | none => rw [hi] at h; simp at h
    | some s1 =>
      rw [hi] at h
      rw [iter_mono hi hNM]
      simp only at h ⊢
      split_ifs at h ⊢
      · exact ih h
      · exact h

/-- **C20.** With a positive tolerance the minimiser terminates for every objective and gradient: after at most
10000 iterations, each with finitely many trial points. -/
theorem C20_terminates [Archimedean K] (P : Problem K n) (hr : 0 < P.reltest) (b : Fin n → K) :
    ∃ N r, vmmin P N b = some r := by
  have hi : ∀ s : St K n, ∃ N s', iter P N s = some s' := by
    intro s
    obtain ⟨N, r, h⟩ := search_total P hr s.b (direction s) (dot (direction s) s.g) s.fmin 1 one_pos
    refine ⟨N, ?_⟩
    unfold iter
    by_cases h1 : dot (direction s) s.g < 0
    · simp only [h1, if_true, h]
      cases r with
      | stop b => simp only; split_ifs <;> exact ⟨_, rfl⟩
      | acc b f sl c => simp only; split_ifs <;> exact ⟨_, rfl⟩
    · simp only [h1, if_false]; exact ⟨_, rfl⟩
  have hl : ∀ k (s : St K n), ∃ N r, loop P N k s = some r := by
    intro k
    induction k with
    | zero => intro s; exact ⟨0, _, rfl⟩
    | succ k ih =>
      intro s
      obtain ⟨N, s', h⟩ := hi s
      by_cases hc : s'.count ≠ n ∨ s'.ilast ≠ s'.grad
      · obtain ⟨M, r, h2⟩ := ih s'
        refine ⟨max N M, r, ?_⟩
        unfold loop
        rw [iter_mono h (le_max_left _ _)]
        simp only
        rw [if_pos hc]
        exact loop_mono h2 (le_max_right _ _)
      · refine ⟨N, (.success, s'), ?_⟩
        unfold loop
        rw [h]
        simp only
        rw [if_neg hc]
  unfold vmmin
  cases hf : P.f b with
  | none => exact ⟨0, _, rfl⟩
  | some f =>
    obtain ⟨N, r, h⟩ := hl 10000 (start P b f)
    exact ⟨N, (r.1, some r.2), by simp only [h, Option.map_some]⟩

/-! ### Non-vacuity: minimising `x²` in one variable. -/

/-- Objective `x²` with its gradient and a tolerance of a tenth. -/
def exP : Problem ℚ 1 := { f := fun b => some (b 0 * b 0), gr := fun b i => 2 * b i, reltest := 1 / 10 }

/-- From `1` the first trial point `-1` is rejected, `3/5` is accepted, and the metric is updated to the exact
inverse second derivative. -/
example : (iter exP 5 (start exP (fun _ => 1) 1)).map (fun s => (s.b 0, s.fmin, s.B 0 0, s.grad)) =
    some (3 / 5, 9 / 25, 1 / 2, 2) := by decide +kernel

example : exP.f (fun _ => 0) = some 0 ∧ exP.gr (fun _ => 0) = 0 := by
  constructor
  · simp [exP]
  · funext i; simp [exP]

/-- Objective `x⁴`. -/
def exQ : Problem ℚ 1 := { f := fun b => some (b 0 ^ 4), gr := fun b i => 4 * b i ^ 3, reltest := 1 / 10 }

/-- From `1` the minimisation of `x⁴` succeeds after an accepted point `1/5` and two steps below the tolerance: the
parameter returned is not `1/5`, the minimum returned is its objective. -/
example : (vmmin exQ 5 (fun _ => 1)).map (fun r => (r.1, r.2.map fun s => (decide (s.b 0 < 1 / 5), s.fmin))) =
    some (.success, some (true, 1 / 625)) := by decide +kernel

end Magma.Num.Vmmin
