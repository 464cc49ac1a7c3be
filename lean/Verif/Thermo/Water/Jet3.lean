import Mathlib.Analysis.Calculus.FDeriv.Prod
import Mathlib.Analysis.Calculus.FDeriv.Mul
import Mathlib.Analysis.Calculus.Deriv.Comp
import Mathlib.Analysis.SpecialFunctions.Log.Deriv
import Mathlib.Analysis.SpecialFunctions.ExpDeriv
import Mathlib.Analysis.Calculus.Deriv.ZPow
import Mathlib.Tactic.FieldSimp
import Mathlib.Tactic.Ring
import Mathlib.Tactic.LinearCombination

/-!
# Functions of two variables with their derivatives to third order

`sources/water.c` carries, for each of its functions, a value and nine partial derivatives written out
by hand.  `J` is such a record, `Ok` says the nine are the partial derivatives of the value, and the
lemmas of this file are the rules of calculus for such records.  Nothing here is code of the
repository.
-/

open Filter Topology

namespace Verif.Thermo.Water

/-- `f` is differentiable at `z` with partial derivatives `a` and `b`. -/
def D (f : ℝ × ℝ → ℝ) (a b : ℝ) (z : ℝ × ℝ) : Prop :=
  HasFDerivAt f (a • ContinuousLinearMap.fst ℝ ℝ ℝ + b • ContinuousLinearMap.snd ℝ ℝ ℝ) z

/-- A value and its partial derivatives to third order; the names are those of the first variable `t`
and of the second one `r`. -/
@[ext] structure J where
  v : ℝ
  t : ℝ
  r : ℝ
  tt : ℝ
  tr : ℝ
  rr : ℝ
  ttt : ℝ
  ttr : ℝ
  trr : ℝ
  rrr : ℝ

/-- The nine reported derivatives are the partial derivatives of the reported value. -/
structure Ok (F : ℝ × ℝ → J) (z : ℝ × ℝ) : Prop where
  v : D (fun z => (F z).v) (F z).t (F z).r z
  t : D (fun z => (F z).t) (F z).tt (F z).tr z
  r : D (fun z => (F z).r) (F z).tr (F z).rr z
  tt : D (fun z => (F z).tt) (F z).ttt (F z).ttr z
  tr : D (fun z => (F z).tr) (F z).ttr (F z).trr z
  rr : D (fun z => (F z).rr) (F z).trr (F z).rrr z

variable {f g : ℝ × ℝ → ℝ} {a b a' b' c : ℝ} {z : ℝ × ℝ}

lemma D.to (h : D f a b z) (ha : a = a') (hb : b = b') : D f a' b' z := by subst ha hb; exact h

lemma D.congr (h : D f a b z) (e : g =ᶠ[𝓝 z] f) : D g a b z := HasFDerivAt.congr_of_eventuallyEq h e

lemma D.const (c : ℝ) : D (fun _ => c) 0 0 z := by
  have := hasFDerivAt_const (𝕜 := ℝ) c z
  simpa [D] using this

lemma D.fst : D (fun z => z.1) 1 0 z := by
  have := hasFDerivAt_fst (𝕜 := ℝ) (p := z)
  simpa [D] using this

lemma D.snd : D (fun z => z.2) 0 1 z := by
  have := hasFDerivAt_snd (𝕜 := ℝ) (p := z)
  simpa [D] using this

lemma D.add (h : D f a b z) (h' : D g a' b' z) : D (fun z => f z + g z) (a + a') (b + b') z := by
  have := HasFDerivAt.add h h'
  refine HasFDerivAt.congr_fderiv this ?_
  ext <;> simp

lemma D.mul (h : D f a b z) (h' : D g a' b' z) :
    D (fun z => f z * g z) (a * g z + f z * a') (b * g z + f z * b') z := by
  have := HasFDerivAt.mul h h'
  refine HasFDerivAt.congr_fderiv this ?_
  ext <;> simp <;> ring

lemma D.comp {φ : ℝ → ℝ} {d : ℝ} (hφ : HasDerivAt φ d (f z)) (h : D f a b z) :
    D (fun z => φ (f z)) (d * a) (d * b) z := by
  have := hφ.comp_hasFDerivAt z h
  refine HasFDerivAt.congr_fderiv this ?_
  ext <;> simp

/-- A function of two variables evaluated along two functions of two variables. -/
lemma D.comp₂ {x y : ℝ × ℝ → ℝ} {x1 x2 y1 y2 : ℝ} (h : D f a b (x z, y z)) (hx : D x x1 x2 z)
    (hy : D y y1 y2 z) :
    D (fun z => f (x z, y z)) (a * x1 + b * y1) (a * x2 + b * y2) z := by
  have h' : HasFDerivAt f _ ((fun z => (x z, y z)) z) := h
  have := HasFDerivAt.comp z h' (HasFDerivAt.prodMk hx hy)
  refine HasFDerivAt.congr_fderiv this ?_
  ext <;> simp

lemma D.left {t p : ℝ} (h : D f a b (t, p)) : HasDerivAt (fun t' => f (t', p)) a t := by
  have hl : HasDerivAt (fun t' : ℝ => ((t', p) : ℝ × ℝ)) ((1, 0) : ℝ × ℝ) t :=
    (hasDerivAt_id t).prodMk (hasDerivAt_const t p)
  have h' : HasFDerivAt f _ ((fun t' => (t', p)) t) := h
  have := HasFDerivAt.comp_hasDerivAt t h' hl
  simpa [Function.comp_def] using this

lemma D.right {t p : ℝ} (h : D f a b (t, p)) : HasDerivAt (fun p' => f (t, p')) b p := by
  have hl : HasDerivAt (fun p' : ℝ => ((t, p') : ℝ × ℝ)) ((0, 1) : ℝ × ℝ) p :=
    (hasDerivAt_const p t).prodMk (hasDerivAt_id p)
  have h' : HasFDerivAt f _ ((fun p' => (t, p')) p) := h
  have := HasFDerivAt.comp_hasDerivAt p h' hl
  simpa [Function.comp_def] using this

namespace Ok

variable {F G : ℝ × ℝ → J}

lemma congr (h : Ok F z) (e : G =ᶠ[𝓝 z] F) : Ok G z := by
  have e0 := e.eq_of_nhds
  constructor
  all_goals rw [e0]
  · exact h.v.congr (e.mono fun w hw => by simp only [hw])
  · exact h.t.congr (e.mono fun w hw => by simp only [hw])
  · exact h.r.congr (e.mono fun w hw => by simp only [hw])
  · exact h.tt.congr (e.mono fun w hw => by simp only [hw])
  · exact h.tr.congr (e.mono fun w hw => by simp only [hw])
  · exact h.rr.congr (e.mono fun w hw => by simp only [hw])

end Ok

/-! ## Rules -/

/-- A constant. -/
def cst (c : ℝ) : J := ⟨c, 0, 0, 0, 0, 0, 0, 0, 0, 0⟩

lemma ok_cst (c : ℝ) : Ok (fun _ => cst c) z := by
  constructor <;> exact D.const _

instance : Add J := ⟨fun x y => ⟨x.v + y.v, x.t + y.t, x.r + y.r, x.tt + y.tt, x.tr + y.tr, x.rr + y.rr,
  x.ttt + y.ttt, x.ttr + y.ttr, x.trr + y.trr, x.rrr + y.rrr⟩⟩

instance : Zero J := ⟨cst 0⟩

@[simp] lemma add_v (x y : J) : (x + y).v = x.v + y.v := rfl
@[simp] lemma add_t (x y : J) : (x + y).t = x.t + y.t := rfl
@[simp] lemma add_r (x y : J) : (x + y).r = x.r + y.r := rfl
@[simp] lemma add_tt (x y : J) : (x + y).tt = x.tt + y.tt := rfl
@[simp] lemma add_tr (x y : J) : (x + y).tr = x.tr + y.tr := rfl
@[simp] lemma add_rr (x y : J) : (x + y).rr = x.rr + y.rr := rfl
@[simp] lemma add_ttt (x y : J) : (x + y).ttt = x.ttt + y.ttt := rfl
@[simp] lemma add_ttr (x y : J) : (x + y).ttr = x.ttr + y.ttr := rfl
@[simp] lemma add_trr (x y : J) : (x + y).trr = x.trr + y.trr := rfl
@[simp] lemma add_rrr (x y : J) : (x + y).rrr = x.rrr + y.rrr := rfl

@[simp] lemma zero_v : (0 : J).v = 0 := rfl
@[simp] lemma zero_t : (0 : J).t = 0 := rfl
@[simp] lemma zero_r : (0 : J).r = 0 := rfl
@[simp] lemma zero_tt : (0 : J).tt = 0 := rfl
@[simp] lemma zero_tr : (0 : J).tr = 0 := rfl
@[simp] lemma zero_rr : (0 : J).rr = 0 := rfl
@[simp] lemma zero_ttt : (0 : J).ttt = 0 := rfl
@[simp] lemma zero_ttr : (0 : J).ttr = 0 := rfl
@[simp] lemma zero_trr : (0 : J).trr = 0 := rfl
@[simp] lemma zero_rrr : (0 : J).rrr = 0 := rfl

lemma Ok.add {F G : ℝ × ℝ → J} (h : Ok F z) (h' : Ok G z) : Ok (fun z => F z + G z) z :=
  ⟨h.v.add h'.v, h.t.add h'.t, h.r.add h'.r, h.tt.add h'.tt, h.tr.add h'.tr, h.rr.add h'.rr⟩

lemma Ok.sum {ι : Type} (F : ι → ℝ × ℝ → J) (l : List ι) (h : ∀ i ∈ l, Ok (F i) z) :
    Ok (fun z => (l.map fun i => F i z).sum) z := by
  induction l with
  | nil => exact ok_cst 0
  | cons i l ih =>
    simp only [List.map_cons, List.sum_cons]
    exact (h i (by simp)).add (ih fun j hj => h j (by simp [hj]))

/-- The product rule. -/
def J.mul (x y : J) : J where
  v := x.v * y.v
  t := x.t * y.v + x.v * y.t
  r := x.r * y.v + x.v * y.r
  tt := x.tt * y.v + 2 * x.t * y.t + x.v * y.tt
  tr := x.tr * y.v + x.t * y.r + x.r * y.t + x.v * y.tr
  rr := x.rr * y.v + 2 * x.r * y.r + x.v * y.rr
  ttt := x.ttt * y.v + 3 * x.tt * y.t + 3 * x.t * y.tt + x.v * y.ttt
  ttr := x.ttr * y.v + x.tt * y.r + 2 * x.tr * y.t + 2 * x.t * y.tr + x.r * y.tt + x.v * y.ttr
  trr := x.trr * y.v + x.rr * y.t + 2 * x.tr * y.r + 2 * x.r * y.tr + x.t * y.rr + x.v * y.trr
  rrr := x.rrr * y.v + 3 * x.rr * y.r + 3 * x.r * y.rr + x.v * y.rrr

lemma Ok.mul {F G : ℝ × ℝ → J} (h : Ok F z) (h' : Ok G z) : Ok (fun z => (F z).mul (G z)) z where
  v := h.v.mul h'.v
  t := ((h.t.mul h'.v).add (h.v.mul h'.t)).to (by simp only [J.mul]; ring) (by simp only [J.mul]; ring)
  r := ((h.r.mul h'.v).add (h.v.mul h'.r)).to (by simp only [J.mul]; ring) (by simp only [J.mul]; ring)
  tt := ((((h.tt.mul h'.v).add (((D.const 2).mul h.t).mul h'.t))).add (h.v.mul h'.tt)).to
    (by simp only [J.mul]; ring) (by simp only [J.mul]; ring)
  tr := ((((h.tr.mul h'.v).add (h.t.mul h'.r)).add (h.r.mul h'.t)).add (h.v.mul h'.tr)).to
    (by simp only [J.mul]; ring) (by simp only [J.mul]; ring)
  rr := ((((h.rr.mul h'.v).add (((D.const 2).mul h.r).mul h'.r))).add (h.v.mul h'.rr)).to
    (by simp only [J.mul]; ring) (by simp only [J.mul]; ring)

/-- The chain rule for a function of one variable, given with three derivatives. -/
def J.app (f0 f1 f2 f3 : ℝ → ℝ) (x : J) : J where
  v := f0 x.v
  t := f1 x.v * x.t
  r := f1 x.v * x.r
  tt := f2 x.v * x.t * x.t + f1 x.v * x.tt
  tr := f2 x.v * x.t * x.r + f1 x.v * x.tr
  rr := f2 x.v * x.r * x.r + f1 x.v * x.rr
  ttt := f3 x.v * x.t * x.t * x.t + 3 * f2 x.v * x.t * x.tt + f1 x.v * x.ttt
  ttr := f3 x.v * x.t * x.t * x.r + f2 x.v * (2 * x.t * x.tr + x.tt * x.r) + f1 x.v * x.ttr
  trr := f3 x.v * x.t * x.r * x.r + f2 x.v * (2 * x.r * x.tr + x.rr * x.t) + f1 x.v * x.trr
  rrr := f3 x.v * x.r * x.r * x.r + 3 * f2 x.v * x.r * x.rr + f1 x.v * x.rrr

lemma Ok.app {F : ℝ × ℝ → J} {f0 f1 f2 f3 : ℝ → ℝ} (h : Ok F z) (h0 : HasDerivAt f0 (f1 (F z).v) (F z).v)
    (h1 : HasDerivAt f1 (f2 (F z).v) (F z).v) (h2 : HasDerivAt f2 (f3 (F z).v) (F z).v) :
    Ok (fun z => (F z).app f0 f1 f2 f3) z where
  v := (h.v.comp h0)
  t := ((h.v.comp h1).mul h.t).to (by simp only [J.app] <;> ring) (by simp only [J.app] <;> ring)
  r := ((h.v.comp h1).mul h.r).to (by simp only [J.app] <;> ring) (by simp only [J.app] <;> ring)
  tt := ((((h.v.comp h2).mul h.t).mul h.t).add ((h.v.comp h1).mul h.tt)).to
    (by simp only [J.app] <;> ring) (by simp only [J.app] <;> ring)
  tr := ((((h.v.comp h2).mul h.t).mul h.r).add ((h.v.comp h1).mul h.tr)).to
    (by simp only [J.app] <;> ring) (by simp only [J.app] <;> ring)
  rr := ((((h.v.comp h2).mul h.r).mul h.r).add ((h.v.comp h1).mul h.rr)).to
    (by simp only [J.app] <;> ring) (by simp only [J.app] <;> ring)

/-- The first variable. -/
def varT (t : ℝ) : J := ⟨t, 1, 0, 0, 0, 0, 0, 0, 0, 0⟩
/-- The second variable. -/
def varR (r : ℝ) : J := ⟨r, 0, 1, 0, 0, 0, 0, 0, 0, 0⟩

lemma ok_varT : Ok (fun z => varT z.1) z := by
  constructor
  · exact D.fst
  all_goals exact D.const _

lemma ok_varR : Ok (fun z => varR z.2) z := by
  constructor
  · exact D.snd
  all_goals exact D.const _

/-- Multiplication by a constant. -/
def J.smul (c : ℝ) (x : J) : J := ⟨c * x.v, c * x.t, c * x.r, c * x.tt, c * x.tr, c * x.rr, c * x.ttt,
  c * x.ttr, c * x.trr, c * x.rrr⟩

lemma Ok.smul {F : ℝ × ℝ → J} (c : ℝ) (h : Ok F z) : Ok (fun z => (F z).smul c) z := by
  refine ((ok_cst c).mul h).congr (Eventually.of_forall fun w => ?_)
  simp [J.smul, J.mul, cst]

/-- A function of the first variable alone. -/
def ofT (f0 f1 f2 f3 : ℝ) : J := ⟨f0, f1, 0, f2, 0, 0, f3, 0, 0, 0⟩

lemma ok_ofT {g : ℝ → J} (hg : ∀ t, g t = ofT (g t).v (g t).t (g t).tt (g t).ttt)
    (h0 : HasDerivAt (fun t => (g t).v) (g z.1).t z.1) (h1 : HasDerivAt (fun t => (g t).t) (g z.1).tt z.1)
    (h2 : HasDerivAt (fun t => (g t).tt) (g z.1).ttt z.1) : Ok (fun z => g z.1) z := by
  refine (Ok.app (F := fun z => varT z.1) (f0 := fun t => (g t).v) (f1 := fun t => (g t).t)
    (f2 := fun t => (g t).tt) (f3 := fun t => (g t).ttt) ok_varT h0 h1 h2).congr
    (Eventually.of_forall fun w => ?_)
  simp only []
  rw [hg w.1]
  simp [J.app, varT, ofT]

/-- A function of the second variable alone. -/
def ofR (f0 f1 f2 f3 : ℝ) : J := ⟨f0, 0, f1, 0, 0, f2, 0, 0, 0, f3⟩

lemma ok_ofR {g : ℝ → J} (hg : ∀ t, g t = ofR (g t).v (g t).r (g t).rr (g t).rrr)
    (h0 : HasDerivAt (fun t => (g t).v) (g z.2).r z.2) (h1 : HasDerivAt (fun t => (g t).r) (g z.2).rr z.2)
    (h2 : HasDerivAt (fun t => (g t).rr) (g z.2).rrr z.2) : Ok (fun z => g z.2) z := by
  refine (Ok.app (F := fun z => varR z.2) (f0 := fun t => (g t).v) (f1 := fun t => (g t).r)
    (f2 := fun t => (g t).rr) (f3 := fun t => (g t).rrr) ok_varR h0 h1 h2).congr
    (Eventually.of_forall fun w => ?_)
  simp only []
  rw [hg w.2]
  simp [J.app, varR, ofR]

end Verif.Thermo.Water
