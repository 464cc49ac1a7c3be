import Verif.Prelude
import Verif.Engine.Bulk

/-!
Model of the Newton corrections that restore a constant enthalpy, entropy or volume,
/repo/sources/silmin_support.c: `correctTforChangeInEnthalpy` 1729-1820,
`correctTforChangeInEntropy` 1822-1914, `correctPforChangeInVolume` 1916-2005. The three functions are
the same text up to the property summed, and the factor `T` in the entropy update (1903).

Simplifications: `double` is an ordered field (so a zero heat capacity gives a zero correction here and
an infinity in C; theorems that depend on it assume it non-zero); the molar properties of the pure
components and of mixing and the re-speciation at fixed oxygen fugacity are arbitrary functions of the
variable `x` that is corrected (T for enthalpy and entropy, P for volume); the subsolidus buffer is
not modelled (`respec` then is the identity).
-/

namespace Magma.Engine.Newton

open Bulk

variable {nlc : ℕ} {K : Type} [Field K] [LinearOrder K]

/-- Which constraint is imposed. -/
inductive Kind
  | enthalpy
  | entropy
  | volume
deriving DecidableEq

/-- silmin_support.c 1810, 1903, 1994: the factor on the residual. -/
def Kind.factor (k : Kind) (x : K) : K :=
  match k with
  | .entropy => x
  | _ => 1

/-- Contribution of a pure solid or of an end-member, or of the mixing term of a solution (then
`moles` is the solution's total): silmin_support.c 1787-1807. -/
structure Contrib (K : Type) where
  moles : K
  prop : K → K
  deriv : K → K

/-- Everything that does not change during the correction. `prop`/`deriv` of liquid component `j` are
`liquid[j].cur.h`, `.cp` (resp. `.s`, `.cp`; `.v`, `.dvdp`) as computed by `gibbs` at `x`. -/
structure Tab (nlc : ℕ) (K : Type) where
  kind : Kind
  prop : Fin nlc → K → K
  deriv : Fin nlc → K → K
  mixProp : (Fin nlc → K) → K → K
  mixDeriv : (Fin nlc → K) → K → K
  solids : List (Contrib K)
  hasLiquid : Bool
  buffered : Bool
  respec : K → (Fin nlc → K) → (Fin nlc → K)
  ref : K

/-- The state: `T` (or `P`), the liquids, and the table entries `liquid[j].cur`, which keep their old
value unless `gibbs` is called. -/
structure St (nlc : ℕ) (K : Type) where
  x : K
  liquids : List (Fin nlc → K)
  cur : Fin nlc → K × K

/-- silmin_support.c 1748-1754: with a buffer every liquid is re-equilibrated with the oxygen
fugacity at the current T, P. -/
def respeciate (t : Tab nlc K) (s : St nlc K) : List (Fin nlc → K) :=
  if t.buffered && t.hasLiquid then s.liquids.map (t.respec s.x) else s.liquids

/-- silmin_support.c 1771-1772: `gibbs` is only called for components that the *first* liquid
contains. -/
def refresh (t : Tab nlc K) (x : K) (ls : List (Fin nlc → K)) (cur : Fin nlc → K × K) :
    Fin nlc → K × K :=
  fun j => if (ls.headD fun _ => 0) j ≠ 0 then (t.prop j x, t.deriv j x) else cur j

/-- silmin_support.c 1768-1807: the total of the property; `sel` picks `.h` or `.cp`. -/
def total (t : Tab nlc K) (ls : List (Fin nlc → K)) (pure : Fin nlc → K)
    (mix : (Fin nlc → K) → K) (sol : Contrib K → K) : K :=
  (if t.hasLiquid then (ls.map fun l => (∑ j, l j * pure j) + (∑ j, l j) * mix l).sum else 0) +
    (t.solids.map fun c => c.moles * sol c).sum

/-- silmin_support.c 1746-1816, one pass: returns the residual and the new state. -/
def step (t : Tab nlc K) (s : St nlc K) : K × St nlc K :=
  let ls := respeciate t s
  let cur := if t.hasLiquid then refresh t s.x ls s.cur else s.cur
  let tot := total t ls (fun j => (cur j).1) (fun l => t.mixProp l s.x) (fun c => c.prop s.x)
  let der := total t ls (fun j => (cur j).2) (fun l => t.mixDeriv l s.x) (fun c => c.deriv s.x)
  let residual := tot - t.ref
  (residual, ⟨s.x - residual * t.kind.factor s.x / der, ls, cur⟩)

/-- The `while` loop (1746, 1839, 1932): the residual starts at `DBL_MAX`, so at least one pass is
made; fuel is the number of passes left. Returns the number of passes made and the final state; the C
functions return `void`. -/
def loop (t : Tab nlc K) (tol : K) : ℕ → St nlc K → ℕ × St nlc K
  | 0, s => (0, s)
  | n + 1, s =>
    let r := step t s
    if tol < |r.1| then
      let q := loop t tol n r.2
      (q.1 + 1, q.2)
    else (1, r.2)

/-- silmin_support.c 1729-2005: at most 50 passes; tolerance `10*DBL_EPSILON*|ref|`. -/
def correct (t : Tab nlc K) (eps : K) (s : St nlc K) : ℕ × St nlc K :=
  loop t (10 * eps * |t.ref|) 50 s

/-! ### Specification -/

/-- The system's enthalpy (entropy, volume) at `x`, all liquids and solids included, every pure
component evaluated at `x`. -/
def trueTotal (t : Tab nlc K) (ls : List (Fin nlc → K)) (x : K) : K :=
  (if t.hasLiquid then
    (ls.map fun l => (∑ j, l j * t.prop j x) + (∑ j, l j) * t.mixProp l x).sum else 0) +
    (t.solids.map fun c => c.moles * c.prop x).sum

/-- Its derivative as reported by the tables. -/
def trueDeriv (t : Tab nlc K) (ls : List (Fin nlc → K)) (x : K) : K :=
  (if t.hasLiquid then
    (ls.map fun l => (∑ j, l j * t.deriv j x) + (∑ j, l j) * t.mixDeriv l x).sum else 0) +
    (t.solids.map fun c => c.moles * c.deriv x).sum

/-- Every component of every liquid is also in the first liquid. Trivial for a single liquid. -/
def FirstHasAll (ls : List (Fin nlc → K)) : Prop :=
  ∀ l ∈ ls, ∀ j, (ls.headD fun _ => 0) j = 0 → l j = 0

theorem firstHasAll_single (l : Fin nlc → K) : FirstHasAll [l] := by
  intro m hm j h
  simp only [List.mem_singleton] at hm
  subst hm
  simpa using h

theorem total_refresh (t : Tab nlc K) (x : K) (ls : List (Fin nlc → K)) (cur : Fin nlc → K × K)
    (h : FirstHasAll ls) :
    total t ls (fun j => (refresh t x ls cur j).1) (fun l => t.mixProp l x) (fun c => c.prop x)
      = trueTotal t ls x ∧
    total t ls (fun j => (refresh t x ls cur j).2) (fun l => t.mixDeriv l x) (fun c => c.deriv x)
      = trueDeriv t ls x := by
  constructor
  · unfold total trueTotal
    congr 2
    congr 1
    refine List.map_congr_left fun l hl => ?_
    congr 1
    refine Finset.sum_congr rfl fun j _ => ?_
    unfold refresh
    by_cases h0 : (ls.headD fun _ => 0) j = 0
    · simp [h l hl j h0]
    · simp only [ne_eq, h0, not_false_eq_true, if_true]
  · unfold total trueDeriv
    congr 2
    congr 1
    refine List.map_congr_left fun l hl => ?_
    congr 1
    refine Finset.sum_congr rfl fun j _ => ?_
    unfold refresh
    by_cases h0 : (ls.headD fun _ => 0) j = 0
    · simp [h l hl j h0]
    · simp only [ne_eq, h0, not_false_eq_true, if_true]

/-! ### C16 -/

/-- States passed through: `s` after `n` passes. -/
def after (t : Tab nlc K) (s : St nlc K) : ℕ → St nlc K
  | 0 => s
  | n + 1 => (step t (after t s n)).2

theorem after_succ' (t : Tab nlc K) (s : St nlc K) (n : ℕ) :
    after t s (n + 1) = after t (step t s).2 n := by
  induction n with
  | zero => rfl
  | succ n ih => simp only [after] at ih ⊢; rw [ih]

theorem loop_spec (t : Tab nlc K) (tol : K) (n : ℕ) (s : St nlc K) :
    (loop t tol n s).1 ≤ n ∧ (0 < n → 0 < (loop t tol n s).1) ∧
    (loop t tol n s).2 = after t s (loop t tol n s).1 ∧
    (∀ k, k + 1 < (loop t tol n s).1 → tol < |(step t (after t s k)).1|) ∧
    ((loop t tol n s).1 < n → ∃ k, (loop t tol n s).1 = k + 1 ∧
      |(step t (after t s k)).1| ≤ tol) := by
  induction n generalizing s with
  | zero =>
    refine ⟨le_refl _, fun h => absurd h (by omega), rfl, fun k hk => ?_, fun h => ?_⟩ <;>
      simp [loop] at *
  | succ n ih =>
    by_cases hc : tol < |(step t s).1|
    · obtain ⟨i1, i2, i3, i4, i5⟩ := ih (step t s).2
      have e : loop t tol (n + 1) s =
          ((loop t tol n (step t s).2).1 + 1, (loop t tol n (step t s).2).2) := by
        simp [loop, hc]
      rw [e]
      refine ⟨by simpa using i1, fun _ => by simp, ?_, ?_, ?_⟩
      · simp only [i3]
        rw [after_succ']
      · intro k hk
        rcases k with _ | k
        · exact hc
        · rw [after_succ']
          exact i4 k (by simpa using hk)
      · intro h
        obtain ⟨k, hk, hr⟩ := i5 (by simpa using h)
        exact ⟨k + 1, by simp [hk], by rw [after_succ']; exact hr⟩
    · have e : loop t tol (n + 1) s = (1, (step t s).2) := by simp [loop, hc]
      rw [e]
      refine ⟨by simp, fun _ => by simp, rfl, fun k hk => ?_, fun _ => ⟨0, rfl, not_lt.mp hc⟩⟩
      exact absurd hk (by simp)

/-- The correction makes between 1 and 50 passes, and stops at the first pass whose residual is within
ten machine epsilons of the reference. Stopping before the fiftieth pass therefore means that the
residual *before the last update* was that small; after fifty passes nothing is known. -/
theorem C16_bounded (t : Tab nlc K) (eps : K) (s : St nlc K) :
    1 ≤ (correct t eps s).1 ∧ (correct t eps s).1 ≤ 50 ∧
    (correct t eps s).2 = after t s (correct t eps s).1 ∧
    (∀ k, k + 1 < (correct t eps s).1 → 10 * eps * |t.ref| < |(step t (after t s k)).1|) ∧
    ((correct t eps s).1 < 50 →
      |(step t (after t s ((correct t eps s).1 - 1))).1| ≤ 10 * eps * |t.ref|) := by
  obtain ⟨h1, h2, h3, h4, h5⟩ := loop_spec t (10 * eps * |t.ref|) 50 s
  refine ⟨h2 (by omega), h1, h3, h4, fun h => ?_⟩
  obtain ⟨k, hk, hr⟩ := h5 h
  simp only [correct]
  rw [hk]
  simpa using hr

/-- The residual a pass computes is the true enthalpy (entropy, volume) of the system minus the target,
provided every component is present in the first liquid. -/
theorem C16_residual_true (t : Tab nlc K) (s : St nlc K)
    (h : t.hasLiquid = true → FirstHasAll (respeciate t s)) :
    (step t s).1 = trueTotal t (respeciate t s) s.x - t.ref ∧
    (step t s).2.x = s.x - (trueTotal t (respeciate t s) s.x - t.ref) * t.kind.factor s.x /
      trueDeriv t (respeciate t s) s.x := by
  by_cases hl : t.hasLiquid = true
  · have := total_refresh t s.x (respeciate t s) s.cur (h hl)
    simp only [step, hl, if_true]
    rw [this.1, this.2]
    exact ⟨rfl, rfl⟩
  · rw [Bool.not_eq_true] at hl
    simp [step, total, trueTotal, trueDeriv, hl]

/-- A component that only a second liquid contains enters with the property it had when it was last
evaluated, at another temperature: the residual is off by exactly its moles times the difference. -/
theorem C16_stale_component (t : Tab nlc K) (s : St nlc K) (l m : Fin nlc → K) (j : Fin nlc)
    (hb : t.buffered = false) (hl : t.hasLiquid = true) (hs : s.liquids = [l, m])
    (hz : l j = 0) (hrest : ∀ i, i ≠ j → l i = 0 → m i = 0) :
    (step t s).1 = trueTotal t s.liquids s.x - t.ref + m j * ((s.cur j).1 - t.prop j s.x) := by
  have hr : respeciate t s = [l, m] := by simp [respeciate, hb, hs]
  simp only [step, hr, hl, if_true, total, trueTotal, hs, List.map_cons, List.map_nil, List.sum_cons,
    List.sum_nil]
  have h1 : ∑ i, l i * (refresh t s.x [l, m] s.cur i).1 = ∑ i, l i * t.prop i s.x := by
    refine Finset.sum_congr rfl fun i _ => ?_
    unfold refresh
    by_cases h0 : l i = 0
    · simp [h0]
    · simp [h0]
  have h2 : ∑ i, m i * (refresh t s.x [l, m] s.cur i).1 =
      ∑ i, m i * t.prop i s.x + m j * ((s.cur j).1 - t.prop j s.x) := by
    have : ∀ i, m i * (refresh t s.x [l, m] s.cur i).1 =
        m i * t.prop i s.x + (if i = j then m j * ((s.cur j).1 - t.prop j s.x) else 0) := by
      intro i
      unfold refresh
      by_cases hij : i = j
      · subst hij
        simp [hz]
        ring
      · by_cases h0 : l i = 0
        · simp [h0, hij, hrest i hij h0]
        · simp [h0, hij]
    rw [Finset.sum_congr rfl fun i _ => this i, Finset.sum_add_distrib]
    simp
  rw [h1, h2]
  ring

/-- The functions report nothing: if the total does not depend on `x` and misses the target, all fifty
passes are made, the result has moved fifty steps away, and the target is still missed by the same
amount. (Stated for enthalpy and volume, without buffer.) -/
theorem C16_unmet [IsStrictOrderedRing K] (t : Tab nlc K) (eps : K) (s : St nlc K) (c d : K)
    (hk : t.kind ≠ .entropy) (hb : t.buffered = false)
    (hfirst : FirstHasAll s.liquids)
    (hc : ∀ x, trueTotal t s.liquids x = c) (hd : ∀ x, trueDeriv t s.liquids x = d)
    (hmiss : 10 * eps * |t.ref| < |c - t.ref|) :
    (correct t eps s).1 = 50 ∧ (correct t eps s).2.x = s.x - 50 * ((c - t.ref) / d) ∧
    (correct t eps s).2.liquids = s.liquids ∧
    trueTotal t (correct t eps s).2.liquids (correct t eps s).2.x = c := by
  have hf : ∀ x : K, t.kind.factor x = 1 := by
    intro x
    cases h : t.kind <;> simp_all [Kind.factor]
  have hresp : ∀ u : St nlc K, respeciate t u = u.liquids := fun u => by simp [respeciate, hb]
  have inv : ∀ n : ℕ, (after t s n).liquids = s.liquids ∧
      (after t s n).x = s.x - n * ((c - t.ref) / d) ∧ (step t (after t s n)).1 = c - t.ref := by
    intro n
    induction n with
    | zero =>
      refine ⟨rfl, by simp [after], ?_⟩
      have := (C16_residual_true t s fun _ => by rw [hresp]; exact hfirst).1
      rw [hresp, hc] at this
      exact this
    | succ n ih =>
      obtain ⟨i1, i2, i3⟩ := ih
      have hl : (after t s (n + 1)).liquids = s.liquids := by
        simp only [after, step]; rw [hresp, i1]
      have hx : (after t s (n + 1)).x = s.x - ((n + 1 : ℕ) : K) * ((c - t.ref) / d) := by
        have := (C16_residual_true t (after t s n) fun _ => by rw [hresp, i1]; exact hfirst).2
        rw [hresp, i1, hc, hd, hf, i2] at this
        simp only [after]
        rw [this]
        push_cast
        ring
      refine ⟨hl, hx, ?_⟩
      have := (C16_residual_true t (after t s (n + 1)) fun _ => by rw [hresp, hl]; exact hfirst).1
      rw [hresp, hl, hc] at this
      exact this
  obtain ⟨b1, b2, b3, b4, b5⟩ := C16_bounded t eps s
  have h50 : (correct t eps s).1 = 50 := by
    by_contra hne
    have := b5 (by omega)
    rw [(inv _).2.2] at this
    exact absurd hmiss (not_lt.mpr this)
  refine ⟨h50, ?_, ?_, ?_⟩
  · rw [b3, h50]; exact_mod_cast (inv 50).2.1
  · rw [b3, h50]; exact (inv 50).1
  · rw [b3, h50, (inv 50).1]; exact hc _

/-- With a constant non-zero heat capacity (and no buffer) the correction is exact after one pass: it
makes at most two passes and ends with the system's enthalpy (volume) equal to the target. -/
theorem C16_linear_exact [IsStrictOrderedRing K] (t : Tab nlc K) (eps : K) (s : St nlc K) (a c : K)
    (hk : t.kind ≠ .entropy) (hb : t.buffered = false) (heps : 0 ≤ eps)
    (hfirst : FirstHasAll s.liquids) (hc0 : c ≠ 0)
    (hH : ∀ x, trueTotal t s.liquids x = a + c * x) (hcp : ∀ x, trueDeriv t s.liquids x = c)
    (hmiss : 10 * eps * |t.ref| < |trueTotal t s.liquids s.x - t.ref|) :
    (correct t eps s).1 = 2 ∧
      trueTotal t (correct t eps s).2.liquids (correct t eps s).2.x = t.ref := by
  have hf : ∀ x : K, t.kind.factor x = 1 := by
    intro x
    cases h : t.kind <;> simp_all [Kind.factor]
  have hresp : ∀ u : St nlc K, respeciate t u = u.liquids := fun u => by simp [respeciate, hb]
  have hl : ∀ u, (step t u).2.liquids = u.liquids := fun u => by simp only [step]; rw [hresp]
  have key : ∀ u : St nlc K, u.liquids = s.liquids →
      (step t u).1 = a + c * u.x - t.ref ∧ (step t u).2.x = (t.ref - a) / c := by
    intro u hu
    have := C16_residual_true t u fun _ => by rw [hresp, hu]; exact hfirst
    rw [hresp, hu, hH, hcp, hf] at this
    refine ⟨this.1, ?_⟩
    rw [this.2]
    field_simp
    ring
  have h0 := key s rfl
  have h1 := key (step t s).2 (hl s)
  have hr0 : 10 * eps * |t.ref| < |(step t s).1| := by
    rw [h0.1, ← hH]; exact hmiss
  have hr1 : (step t (step t s).2).1 = 0 := by
    rw [h1.1, h0.2]
    field_simp
    ring
  have hcor : correct t eps s = (2, (step t (step t s).2).2) := by
    unfold correct
    rw [show (50 : ℕ) = 48 + 1 + 1 from rfl, loop]
    simp only [hr0, if_true]
    rw [loop]
    have hn : ¬ 10 * eps * |t.ref| < |(step t (step t s).2).1| := by
      rw [hr1, abs_zero, not_lt]
      positivity
    simp only [hn, if_false]
  rw [hcor]
  refine ⟨rfl, ?_⟩
  rw [hl, hl, hH, h1.2]
  field_simp
  ring

/-- Entropy: the derivative the tables report is the heat capacity `C`, not `dS/dT = C/T`, and the update is
`T - (S - ref) T / C`. With the entropy linear in `T` with slope `c` and heat capacity `c T`, it is exact after one pass, and
the loop ends after two with the entropy equal to the target. -/
theorem C16_entropy_exact [IsStrictOrderedRing K] (t : Tab nlc K) (eps : K) (s : St nlc K) (a c : K)
    (hk : t.kind = .entropy) (hb : t.buffered = false) (heps : 0 ≤ eps)
    (hfirst : FirstHasAll s.liquids) (hc0 : c ≠ 0) (hx0 : s.x ≠ 0) (href : t.ref ≠ a)
    (hS : ∀ x, trueTotal t s.liquids x = a + c * x) (hcp : ∀ x, trueDeriv t s.liquids x = c * x)
    (hmiss : 10 * eps * |t.ref| < |trueTotal t s.liquids s.x - t.ref|) :
    (correct t eps s).1 = 2 ∧
      trueTotal t (correct t eps s).2.liquids (correct t eps s).2.x = t.ref := by
  have hf : ∀ x : K, t.kind.factor x = x := by
    intro x
    rw [hk, Kind.factor]
  have hresp : ∀ u : St nlc K, respeciate t u = u.liquids := fun u => by simp [respeciate, hb]
  have hl : ∀ u, (step t u).2.liquids = u.liquids := fun u => by simp only [step]; rw [hresp]
  have key : ∀ u : St nlc K, u.liquids = s.liquids → u.x ≠ 0 →
      (step t u).1 = a + c * u.x - t.ref ∧ (step t u).2.x = (t.ref - a) / c := by
    intro u hu hux
    have := C16_residual_true t u fun _ => by rw [hresp, hu]; exact hfirst
    rw [hresp, hu, hS, hcp, hf] at this
    refine ⟨this.1, ?_⟩
    rw [this.2]
    field_simp
    ring
  have h0 := key s rfl hx0
  have hx1 : (step t s).2.x ≠ 0 := by
    rw [h0.2]
    exact div_ne_zero (sub_ne_zero.mpr href) hc0
  have h1 := key (step t s).2 (hl s) hx1
  have hr0 : 10 * eps * |t.ref| < |(step t s).1| := by
    rw [h0.1, ← hS]; exact hmiss
  have hr1 : (step t (step t s).2).1 = 0 := by
    rw [h1.1, h0.2]
    field_simp
    ring
  have hcor : correct t eps s = (2, (step t (step t s).2).2) := by
    unfold correct
    rw [show (50 : ℕ) = 48 + 1 + 1 from rfl, loop]
    simp only [hr0, if_true]
    rw [loop]
    have hn : ¬ 10 * eps * |t.ref| < |(step t (step t s).2).1| := by
      rw [hr1, abs_zero, not_lt]
      positivity
    simp only [hn, if_false]
  rw [hcor]
  refine ⟨rfl, ?_⟩
  rw [hl, hl, hS, h1.2]
  field_simp
  ring

/-- One pass shrinks the residual by a fixed factor whenever the slope of the total and the reported
derivative both lie between `lo` and `hi < 2 lo` (enthalpy and volume up to sign, no buffer). -/
theorem C16_contracts [IsStrictOrderedRing K] (t : Tab nlc K) (s : St nlc K) (lo hi : K)
    (hk : t.kind ≠ .entropy) (hb : t.buffered = false) (hfirst : FirstHasAll s.liquids)
    (hlo : 0 < lo)
    (hslope : ∀ x y, x ≤ y → lo * (y - x) ≤ trueTotal t s.liquids y - trueTotal t s.liquids x ∧
      trueTotal t s.liquids y - trueTotal t s.liquids x ≤ hi * (y - x))
    (hcp : lo ≤ trueDeriv t s.liquids s.x ∧ trueDeriv t s.liquids s.x ≤ hi) :
    |(step t (step t s).2).1| ≤ (hi / lo - 1) * |(step t s).1| := by
  have hf : ∀ x : K, t.kind.factor x = 1 := by
    intro x
    cases h : t.kind <;> simp_all [Kind.factor]
  have hresp : ∀ u : St nlc K, respeciate t u = u.liquids := fun u => by simp [respeciate, hb]
  have hl : (step t s).2.liquids = s.liquids := by simp only [step]; rw [hresp]
  have r0 := C16_residual_true t s fun _ => by rw [hresp]; exact hfirst
  have r1 := C16_residual_true t (step t s).2 fun _ => by rw [hresp, hl]; exact hfirst
  rw [hresp] at r0
  rw [hresp, hl] at r1
  rw [hf] at r0
  set H := trueTotal t s.liquids
  set D := trueDeriv t s.liquids s.x
  set r := H s.x - t.ref with hr
  set x' := (step t s).2.x
  have hD : 0 < D := hlo.trans_le hcp.1
  have hx' : x' = s.x - r / D := by rw [r0.2]; ring
  rw [r1.1, r0.1]
  have hlohi : lo ≤ hi := hcp.1.trans hcp.2
  have hge : 0 ≤ hi / lo - 1 := by
    rw [sub_nonneg, le_div_iff₀ hlo]; linarith
  -- the new residual lies between r - hi*(r/D) and r - lo*(r/D)
  have hq1 : lo * (1 / D) ≤ 1 := by rw [mul_one_div, div_le_one hD]; exact hcp.1
  have hq2 : 1 ≤ hi * (1 / D) := by rw [mul_one_div, le_div_iff₀ hD]; linarith [hcp.2]
  have hq3 : hi * (1 / D) ≤ hi / lo := by
    rw [mul_one_div]
    exact div_le_div_of_nonneg_left (hlo.le.trans hlohi) hlo hcp.1
  have hq4 : 2 - hi / lo ≤ lo * (1 / D) := by
    have hhi : 0 < hi := hlo.trans_le hlohi
    have h1 : lo / hi ≤ lo * (1 / D) := by
      rw [mul_one_div]
      exact div_le_div_of_nonneg_left hlo.le hD hcp.2
    have h2 : 2 - hi / lo ≤ lo / hi := by
      rw [sub_le_iff_le_add, div_add_div _ _ hhi.ne' hlo.ne', le_div_iff₀ (by positivity)]
      nlinarith [sq_nonneg (hi - lo)]
    linarith
  rcases le_or_gt 0 r with hpos | hneg
  · have hxx : x' ≤ s.x := by
      rw [hx']
      have : 0 ≤ r / D := div_nonneg hpos hD.le
      linarith
    obtain ⟨s1, s2⟩ := hslope x' s.x hxx
    have hdiff : s.x - x' = r * (1 / D) := by rw [hx']; ring
    rw [hdiff] at s1 s2
    rw [abs_of_nonneg hpos, abs_le]
    constructor
    · have : hi * (r * (1 / D)) ≤ (hi / lo) * r := by
        calc hi * (r * (1 / D)) = (hi * (1 / D)) * r := by ring
          _ ≤ (hi / lo) * r := mul_le_mul_of_nonneg_right hq3 hpos
      linarith
    · have : (2 - hi / lo) * r ≤ lo * (r * (1 / D)) := by
        calc (2 - hi / lo) * r ≤ (lo * (1 / D)) * r := mul_le_mul_of_nonneg_right hq4 hpos
          _ = lo * (r * (1 / D)) := by ring
      linarith
  · have hxx : s.x ≤ x' := by
      rw [hx']
      have : r / D ≤ 0 := div_nonpos_of_nonpos_of_nonneg hneg.le hD.le
      linarith
    obtain ⟨s1, s2⟩ := hslope s.x x' hxx
    have hdiff : x' - s.x = -r * (1 / D) := by rw [hx']; ring
    rw [hdiff] at s1 s2
    rw [abs_of_neg hneg, abs_le]
    have hpos : 0 ≤ -r := by linarith
    constructor
    · have : (2 - hi / lo) * (-r) ≤ lo * (-r * (1 / D)) := by
        calc (2 - hi / lo) * (-r) ≤ (lo * (1 / D)) * (-r) := mul_le_mul_of_nonneg_right hq4 hpos
          _ = lo * (-r * (1 / D)) := by ring
      linarith
    · have : hi * (-r * (1 / D)) ≤ (hi / lo) * (-r) := by
        calc hi * (-r * (1 / D)) = (hi * (1 / D)) * (-r) := by ring
          _ ≤ (hi / lo) * (-r) := mul_le_mul_of_nonneg_right hq3 hpos
      linarith

/-! ### Concrete cases -/

/-- One liquid component with enthalpy `1000 + 100 T`, one solid with `50 T`. -/
def demoTab : Tab 1 ℚ where
  kind := .enthalpy
  prop := fun _ x => 1000 + 100 * x
  deriv := fun _ _ => 100
  mixProp := fun _ _ => 0
  mixDeriv := fun _ _ => 0
  solids := [⟨2, fun x => 50 * x, fun _ => 50⟩]
  hasLiquid := true
  buffered := false
  respec := fun _ l => l
  ref := 201000

example : (correct demoTab (1 / 4503599627370496) ⟨1500, [fun _ => 1], fun _ => (0, 0)⟩).1 = 2 ∧
    (correct demoTab (1 / 4503599627370496) ⟨1500, [fun _ => 1], fun _ => (0, 0)⟩).2.x = 1000 := by
  decide +kernel

/-- Entropy `10 + T/2`, heat capacity `T/2`, target 760: the first pass reaches 1500 K and the second finds no residual. -/
example : let t : Tab 1 ℚ := ⟨.entropy, fun _ x => 10 + x / 2, fun _ x => x / 2, fun _ _ => 0, fun _ _ => 0, [], true, false,
      fun _ l => l, 760⟩
    let s : St 1 ℚ := ⟨1400, [fun _ => 1], fun _ => (0, 0)⟩
    (step t s).1 = -50 ∧ (step t s).2.x = 1500 ∧ (step t (step t s).2).1 = 0 := by
  decide +kernel

/-- A second liquid with a component that the first lacks. -/
example : (step { demoTab with solids := [] } (nlc := 1)
    ⟨1500, [fun _ => 0, fun _ => 1], fun _ => (7, 100)⟩).1 = 7 - 201000 := by
  decide +kernel

end Magma.Engine.Newton
