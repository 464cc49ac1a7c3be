import Verif.Thermo.Ordering

/-!
The arrays that the phases with ordering fill from their macros (`fillD2GDR2`, `fillD3GDRDS2`, …, for example
cummingtonite.c 595-670), and how the functions of those files index them.

`Tables` are the arrays, `Tables.jets` is the function of all variables they describe, and `jets_ok` reduces
"these arrays are the derivatives of the macro `G`" to one derivative per array entry.
-/

namespace Verif.Thermo.Ordering

open Finset Filter Topology

noncomputable section

/-- `DBL_EPSILON`, float.h. -/
def dblEps : ℝ := 2 ^ (-52 : ℤ)

lemma dblEps_pos : 0 < dblEps := by unfold dblEps; positivity

/-- `if (x <= lo) x = DBL_EPSILON; if (x >= hi) x = top;` (cummingtonite.c 736-748, nepheline.c 855-867). -/
def keep (lo hi top x : ℝ) : ℝ :=
  let a := if x ≤ lo then dblEps else x
  if hi ≤ a then top else a

/-- `if (x <= lo) x = DBL_EPSILON;` (melilite.c 1437-1444, amphibole.c 1046-1051). -/
def keepAbove (lo x : ℝ) : ℝ := if x ≤ lo then dblEps else x

lemma keep_eq {lo hi top x : ℝ} (h : lo < x) (h' : x < hi) : keep lo hi top x = x := by
  unfold keep
  rw [if_neg (not_le.2 h)]
  exact if_neg (not_le.2 h')

lemma keepAbove_eq {lo x : ℝ} (h : lo < x) : keepAbove lo x = x := if_neg (not_le.2 h)

/-- The arrays filled by the macros of a phase with `nr` composition and `ns` ordering variables; the names are
those of the C arrays (cummingtonite.c 595-670, nepheline.c 640-830). `g` is `G`, `s` is `S`. -/
structure Tables (nr ns : ℕ) where
  g : ℝ
  s : ℝ
  dgdr : Fin nr → ℝ
  dgds : Fin ns → ℝ
  dgdt : ℝ
  dgdp : ℝ
  d2gdr2 : Fin nr → Fin nr → ℝ
  d2gdrds : Fin nr → Fin ns → ℝ
  d2gdrdt : Fin nr → ℝ
  d2gdrdp : Fin nr → ℝ
  d2gds2 : Fin ns → Fin ns → ℝ
  d2gdsdt : Fin ns → ℝ
  d2gdsdp : Fin ns → ℝ
  d2gdt2 : ℝ
  d2gdtdp : ℝ
  d2gdp2 : ℝ
  d3gdr3 : Fin nr → Fin nr → Fin nr → ℝ
  d3gdr2ds : Fin nr → Fin nr → Fin ns → ℝ
  d3gdr2dt : Fin nr → Fin nr → ℝ
  d3gdr2dp : Fin nr → Fin nr → ℝ
  d3gdrds2 : Fin nr → Fin ns → Fin ns → ℝ
  d3gdrdsdt : Fin nr → Fin ns → ℝ
  d3gdrdsdp : Fin nr → Fin ns → ℝ
  d3gdrdt2 : Fin nr → ℝ
  d3gdrdtdp : Fin nr → ℝ
  d3gdrdp2 : Fin nr → ℝ
  d3gds3 : Fin ns → Fin ns → Fin ns → ℝ
  d3gds2dt : Fin ns → Fin ns → ℝ
  d3gds2dp : Fin ns → Fin ns → ℝ
  d3gdsdt2 : Fin ns → ℝ
  d3gdsdtdp : Fin ns → ℝ
  d3gdsdp2 : Fin ns → ℝ
  d3gdt3 : ℝ
  d3gdt2dp : ℝ
  d3gdtdp2 : ℝ
  d3gdp3 : ℝ

variable {nr ns : ℕ}

/-- All variables of a phase: composition, temperature and pressure, ordering. -/
abbrev Var (nr ns : ℕ) := Ext nr ⊕ Fin ns

/-- Entry of the first derivatives for a variable (cummingtonite.c 1215-1217, 1480-1486). -/
def Tables.at1 (T : Tables nr ns) : Var nr ns → ℝ
  | .inl (.inl i) => T.dgdr i
  | .inl (.inr a) => ![T.dgdt, T.dgdp] a
  | .inr k => T.dgds k

/-- Entry of the second derivatives for a pair of variables (the index patterns of cummingtonite.c 790-1050 and
1495-2043). -/
def Tables.at2 (T : Tables nr ns) : Var nr ns → Var nr ns → ℝ
  | .inl (.inl i), .inl (.inl j) => T.d2gdr2 i j
  | .inl (.inl i), .inl (.inr b) => ![T.d2gdrdt i, T.d2gdrdp i] b
  | .inl (.inl i), .inr l => T.d2gdrds i l
  | .inl (.inr a), .inl (.inl j) => ![T.d2gdrdt j, T.d2gdrdp j] a
  | .inl (.inr a), .inl (.inr b) => ![![T.d2gdt2, T.d2gdtdp], ![T.d2gdtdp, T.d2gdp2]] a b
  | .inl (.inr a), .inr l => ![T.d2gdsdt l, T.d2gdsdp l] a
  | .inr k, .inl (.inl j) => T.d2gdrds j k
  | .inr k, .inl (.inr b) => ![T.d2gdsdt k, T.d2gdsdp k] b
  | .inr k, .inr l => T.d2gds2 k l

/-- Third derivatives in temperature and pressure. -/
def tp3 (a b c d : ℝ) (i j k : Fin 2) : ℝ :=
  ![![![a, b], ![b, c]], ![![b, c], ![c, d]]] i j k

/-- Entry of the third derivatives for three variables (same places). -/
def Tables.at3 (T : Tables nr ns) : Var nr ns → Var nr ns → Var nr ns → ℝ
  | .inl (.inl i), .inl (.inl j), .inl (.inl k) => T.d3gdr3 i j k
  | .inl (.inl i), .inl (.inl j), .inl (.inr c) => ![T.d3gdr2dt i j, T.d3gdr2dp i j] c
  | .inl (.inl i), .inl (.inl j), .inr m => T.d3gdr2ds i j m
  | .inl (.inl i), .inl (.inr b), .inl (.inl k) => ![T.d3gdr2dt i k, T.d3gdr2dp i k] b
  | .inl (.inl i), .inl (.inr b), .inl (.inr c) =>
      ![![T.d3gdrdt2 i, T.d3gdrdtdp i], ![T.d3gdrdtdp i, T.d3gdrdp2 i]] b c
  | .inl (.inl i), .inl (.inr b), .inr m => ![T.d3gdrdsdt i m, T.d3gdrdsdp i m] b
  | .inl (.inl i), .inr l, .inl (.inl k) => T.d3gdr2ds i k l
  | .inl (.inl i), .inr l, .inl (.inr c) => ![T.d3gdrdsdt i l, T.d3gdrdsdp i l] c
  | .inl (.inl i), .inr l, .inr m => T.d3gdrds2 i l m
  | .inl (.inr a), .inl (.inl j), .inl (.inl k) => ![T.d3gdr2dt j k, T.d3gdr2dp j k] a
  | .inl (.inr a), .inl (.inl j), .inl (.inr c) =>
      ![![T.d3gdrdt2 j, T.d3gdrdtdp j], ![T.d3gdrdtdp j, T.d3gdrdp2 j]] a c
  | .inl (.inr a), .inl (.inl j), .inr m => ![T.d3gdrdsdt j m, T.d3gdrdsdp j m] a
  | .inl (.inr a), .inl (.inr b), .inl (.inl k) =>
      ![![T.d3gdrdt2 k, T.d3gdrdtdp k], ![T.d3gdrdtdp k, T.d3gdrdp2 k]] a b
  | .inl (.inr a), .inl (.inr b), .inl (.inr c) => tp3 T.d3gdt3 T.d3gdt2dp T.d3gdtdp2 T.d3gdp3 a b c
  | .inl (.inr a), .inl (.inr b), .inr m =>
      ![![T.d3gdsdt2 m, T.d3gdsdtdp m], ![T.d3gdsdtdp m, T.d3gdsdp2 m]] a b
  | .inl (.inr a), .inr l, .inl (.inl k) => ![T.d3gdrdsdt k l, T.d3gdrdsdp k l] a
  | .inl (.inr a), .inr l, .inl (.inr c) =>
      ![![T.d3gdsdt2 l, T.d3gdsdtdp l], ![T.d3gdsdtdp l, T.d3gdsdp2 l]] a c
  | .inl (.inr a), .inr l, .inr m => ![T.d3gds2dt l m, T.d3gds2dp l m] a
  | .inr k, .inl (.inl i), .inl (.inl j) => T.d3gdr2ds i j k
  | .inr k, .inl (.inl i), .inl (.inr c) => ![T.d3gdrdsdt i k, T.d3gdrdsdp i k] c
  | .inr k, .inl (.inl i), .inr m => T.d3gdrds2 i k m
  | .inr k, .inl (.inr b), .inl (.inl j) => ![T.d3gdrdsdt j k, T.d3gdrdsdp j k] b
  | .inr k, .inl (.inr b), .inl (.inr c) =>
      ![![T.d3gdsdt2 k, T.d3gdsdtdp k], ![T.d3gdsdtdp k, T.d3gdsdp2 k]] b c
  | .inr k, .inl (.inr b), .inr m => ![T.d3gds2dt k m, T.d3gds2dp k m] b
  | .inr k, .inr l, .inl (.inl j) => T.d3gdrds2 j k l
  | .inr k, .inr l, .inl (.inr c) => ![T.d3gds2dt k l, T.d3gds2dp k l] c
  | .inr k, .inr l, .inr m => T.d3gds3 k l m

/-- The macros of a phase as functions of all its variables. -/
def jets (T : (Var nr ns → ℝ) → Tables nr ns) : Jets (Ext nr) (Fin ns) where
  g x := (T x).g
  g1 x := (T x).at1
  g2 x := (T x).at2
  g3 x := (T x).at3

/-- The arrays that are symmetric in some of their indices. -/
structure Tables.Symm (T : Tables nr ns) : Prop where
  rr : ∀ i j, T.d2gdr2 i j = T.d2gdr2 j i
  ss : ∀ i j, T.d2gds2 i j = T.d2gds2 j i
  rrr : ∀ i j k, T.d3gdr3 i j k = T.d3gdr3 j i k ∧ T.d3gdr3 i j k = T.d3gdr3 i k j
  rrs : ∀ i j k, T.d3gdr2ds i j k = T.d3gdr2ds j i k
  rrt : ∀ i j, T.d3gdr2dt i j = T.d3gdr2dt j i
  rrp : ∀ i j, T.d3gdr2dp i j = T.d3gdr2dp j i
  rss : ∀ i j k, T.d3gdrds2 i j k = T.d3gdrds2 i k j
  sss : ∀ i j k, T.d3gds3 i j k = T.d3gds3 j i k ∧ T.d3gds3 i j k = T.d3gds3 i k j
  sst : ∀ i j, T.d3gds2dt i j = T.d3gds2dt j i
  ssp : ∀ i j, T.d3gds2dp i j = T.d3gds2dp j i

lemma Tables.Symm.at2 {T : Tables nr ns} (h : T.Symm) (i j : Var nr ns) : T.at2 i j = T.at2 j i := by
  rcases i with (i | i) | i <;> rcases j with (j | j) | j <;> try rfl
  · exact h.rr i j
  · fin_cases i <;> fin_cases j <;> rfl
  · exact h.ss i j

lemma tp3_symm (a b c d : ℝ) (i j k : Fin 2) :
    tp3 a b c d i j k = tp3 a b c d j i k ∧ tp3 a b c d i j k = tp3 a b c d i k j := by
  fin_cases i <;> fin_cases j <;> fin_cases k <;> exact ⟨rfl, rfl⟩

lemma tp2_symm (a b c : ℝ) (i j : Fin 2) : ![![a, b], ![b, c]] i j = ![![a, b], ![b, c]] j i := by
  fin_cases i <;> fin_cases j <;> rfl

lemma vec2_congr {a b c d : ℝ} (h : a = c) (h' : b = d) (i : Fin 2) : ![a, b] i = ![c, d] i := by
  rw [h, h']

lemma Tables.Symm.at3 {T : Tables nr ns} (h : T.Symm) (i j k : Var nr ns) :
    T.at3 i j k = T.at3 j i k ∧ T.at3 i j k = T.at3 i k j := by
  rcases i with (i | i) | i <;> rcases j with (j | j) | j <;> rcases k with (k | k) | k <;>
    refine ⟨?_, ?_⟩ <;> first
    | rfl
    | exact (h.rrr i j k).1
    | exact (h.rrr i j k).2
    | exact (h.sss i j k).1
    | exact (h.sss i j k).2
    | exact (tp3_symm _ _ _ _ i j k).1
    | exact (tp3_symm _ _ _ _ i j k).2
    | exact tp2_symm _ _ _ i j
    | exact tp2_symm _ _ _ j k
    | exact tp2_symm _ _ _ i k
    | exact h.rrs _ _ _
    | exact h.rss _ _ _
    | exact vec2_congr (h.rrt _ _) (h.rrp _ _) _
    | exact vec2_congr (h.sst _ _) (h.ssp _ _) _

/-- A function with the given derivative along every line, and differentiable, has that gradient. -/
lemma Gr.of_lines {α : Type} [Fintype α] [DecidableEq α] {f : (α → ℝ) → ℝ} {x d : α → ℝ}
    (hf : DifferentiableAt ℝ f x)
    (h : ∀ u : α → ℝ, HasDerivAt (fun v : ℝ => f (fun i => x i + v * u i)) (∑ i, d i * u i) 0) : Gr f x d := by
  unfold Gr
  have e : fderiv ℝ f x = ∑ i, d i • (ContinuousLinearMap.proj i : (α → ℝ) →L[ℝ] ℝ) := by
    refine ContinuousLinearMap.ext fun u => ?_
    have hb : HasDerivAt (fun v : ℝ => (fun i => x i + v * u i)) u 0 := by
      refine hasDerivAt_pi.mpr fun i => ?_
      simpa using ((hasDerivAt_id' (0 : ℝ)).mul_const (u i)).const_add (x i)
    have h2 : HasFDerivAt f (fderiv ℝ f x) ((fun v : ℝ => (fun i => x i + v * u i)) 0) := by
      have : (fun i => x i + 0 * u i) = x := by funext i; simp
      simp only [this]; exact hf.hasFDerivAt
    have h3 := (h2.comp_hasDerivAt (0 : ℝ) hb).unique (h u)
    rw [h3]
    simp [_root_.sum_apply]
  rw [← e]; exact hf.hasFDerivAt

/-- Two macros tables that agree on an open set describe the same derivatives there. -/
lemma ok_congr {T T' : (Var nr ns → ℝ) → Tables nr ns} {D : (Var nr ns → ℝ) → Prop} (ho : IsOpen {x | D x})
    (e : ∀ x, D x → T' x = T x) (h : (jets T).Ok D) : (jets T').Ok D := by
  have ev : ∀ x, D x → ∀ᶠ y in 𝓝 x, T' y = T y := fun x hx =>
    Filter.mem_of_superset (ho.mem_nhds hx) fun y hy => e y hy
  constructor
  · intro x hx
    have h1 := h.d1 x hx
    refine (h1.congr ((ev x hx).mono fun y hy => ?_)).congr_d ?_
    · simp only [jets, hy]
    · simp only [jets, e x hx]
  · intro x hx i
    refine ((h.d2 x hx i).congr ((ev x hx).mono fun y hy => ?_)).congr_d ?_
    · simp only [jets, hy]
    · simp only [jets, e x hx]
  · intro x hx i j
    refine ((h.d3 x hx i j).congr ((ev x hx).mono fun y hy => ?_)).congr_d ?_
    · simp only [jets, hy]
    · simp only [jets, e x hx]
  · intro x hx i j
    have := h.sym2 x hx i j
    simpa only [jets, e x hx] using this
  · intro x hx i j k
    have := h.sym3 x hx i j k
    simpa only [jets, e x hx] using this

/-- The arrays are the derivatives of `G` if each entry has the next table as its gradient. -/
lemma jets_ok {T : (Var nr ns → ℝ) → Tables nr ns} {D : (Var nr ns → ℝ) → Prop}
    (hs : ∀ x, D x → (T x).Symm)
    (h1 : ∀ x, D x → Gr (fun x => (T x).g) x (T x).at1)
    (hr : ∀ x, D x → ∀ i, Gr (fun x => (T x).dgdr i) x ((T x).at2 (.inl (.inl i))))
    (ht : ∀ x, D x → Gr (fun x => (T x).dgdt) x ((T x).at2 (.inl iT)))
    (hp : ∀ x, D x → Gr (fun x => (T x).dgdp) x ((T x).at2 (.inl iP)))
    (hk : ∀ x, D x → ∀ k, Gr (fun x => (T x).dgds k) x ((T x).at2 (.inr k)))
    (hrr : ∀ x, D x → ∀ i j, Gr (fun x => (T x).d2gdr2 i j) x ((T x).at3 (.inl (.inl i)) (.inl (.inl j))))
    (hrs : ∀ x, D x → ∀ i k, Gr (fun x => (T x).d2gdrds i k) x ((T x).at3 (.inl (.inl i)) (.inr k)))
    (hrt : ∀ x, D x → ∀ i, Gr (fun x => (T x).d2gdrdt i) x ((T x).at3 (.inl (.inl i)) (.inl iT)))
    (hrp : ∀ x, D x → ∀ i, Gr (fun x => (T x).d2gdrdp i) x ((T x).at3 (.inl (.inl i)) (.inl iP)))
    (hss : ∀ x, D x → ∀ k l, Gr (fun x => (T x).d2gds2 k l) x ((T x).at3 (.inr k) (.inr l)))
    (hst : ∀ x, D x → ∀ k, Gr (fun x => (T x).d2gdsdt k) x ((T x).at3 (.inr k) (.inl iT)))
    (hsp : ∀ x, D x → ∀ k, Gr (fun x => (T x).d2gdsdp k) x ((T x).at3 (.inr k) (.inl iP)))
    (htt : ∀ x, D x → Gr (fun x => (T x).d2gdt2) x ((T x).at3 (.inl iT) (.inl iT)))
    (htp : ∀ x, D x → Gr (fun x => (T x).d2gdtdp) x ((T x).at3 (.inl iT) (.inl iP)))
    (hpp : ∀ x, D x → Gr (fun x => (T x).d2gdp2) x ((T x).at3 (.inl iP) (.inl iP))) :
    (jets T).Ok D := by
  constructor
  · exact h1
  · intro x hx i
    rcases i with (i | i) | i
    · exact hr x hx i
    · fin_cases i
      · exact ht x hx
      · exact hp x hx
    · exact hk x hx i
  · intro x hx i j
    have sw : ∀ i j, (T x).at3 i j = (T x).at3 j i := fun i j => funext fun k => ((hs x hx).at3 i j k).1
    rcases i with (i | i) | i <;> rcases j with (j | j) | j
    · exact hrr x hx i j
    · fin_cases j
      · exact hrt x hx i
      · exact hrp x hx i
    · exact hrs x hx i j
    · fin_cases i
      · exact (hrt x hx j).congr_d (sw _ _)
      · exact (hrp x hx j).congr_d (sw _ _)
    · fin_cases i <;> fin_cases j
      · exact htt x hx
      · exact htp x hx
      · exact (htp x hx).congr_d (sw _ _)
      · exact hpp x hx
    · fin_cases i
      · exact (hst x hx j).congr_d (sw _ _)
      · exact (hsp x hx j).congr_d (sw _ _)
    · exact (hrs x hx j i).congr_d (sw _ _)
    · fin_cases j
      · exact hst x hx i
      · exact hsp x hx i
    · exact hss x hx i j
  · intro x hx i j; exact (hs x hx).at2 i j
  · intro x hx i j k; exact (hs x hx).at3 i j k

/-- Sum over all variables. -/
lemma sum_var (f : Var nr ns → ℝ) :
    ∑ i, f i = ((∑ i, f (.inl (.inl i))) + (f (.inl iT) + f (.inl iP))) + ∑ k, f (.inr k) := by
  simp [Fintype.sum_sum_type, Fin.sum_univ_two]

lemma hasDerivAt_cxlogx {x : ℝ → ℝ} {c x' v : ℝ} (h : HasDerivAt x x' v) (p : 0 < x v) :
    HasDerivAt (fun v => c * x v * Real.log (x v)) (c * (Real.log (x v) + 1) * x') v := by
  have := (h.const_mul c).fun_mul (h.log p.ne')
  refine this.congr_deriv ?_
  field_simp

lemma hasDerivAt_xlogx {x : ℝ → ℝ} {x' v : ℝ} (h : HasDerivAt x x' v) (p : 0 < x v) :
    HasDerivAt (fun v => x v * Real.log (x v)) ((Real.log (x v) + 1) * x') v := by
  have := h.fun_mul (h.log p.ne')
  refine this.congr_deriv ?_
  field_simp

lemma hasDerivAt_divsq {x : ℝ → ℝ} {c x' v : ℝ} (h : HasDerivAt x x' v) (p : 0 < x v) :
    HasDerivAt (fun v => c / (x v * x v)) (-2 * c / x v ^ 3 * x') v := by
  have := (hasDerivAt_const v c).fun_div (h.fun_mul h) (mul_ne_zero p.ne' p.ne')
  refine this.congr_deriv ?_
  have := p.ne'
  field_simp
  ring

lemma hasDerivAt_divcu {x : ℝ → ℝ} {c x' v : ℝ} (h : HasDerivAt x x' v) (p : 0 < x v) :
    HasDerivAt (fun v => c / (x v * x v * x v)) (-3 * c / x v ^ 4 * x') v := by
  have := (hasDerivAt_const v c).fun_div ((h.fun_mul h).fun_mul h) (mul_ne_zero (mul_ne_zero p.ne' p.ne') p.ne')
  refine this.congr_deriv ?_
  have := p.ne'
  field_simp
  ring

lemma hasDerivAt_quot {f g : ℝ → ℝ} {f' g' v : ℝ} (hf : HasDerivAt f f' v) (hg : HasDerivAt g g' v) (h : g v ≠ 0) :
    HasDerivAt (fun v => f v / g v) (f' / g v - f v * g' / g v ^ 2) v := by
  refine (hf.fun_div hg h).congr_deriv ?_
  field_simp

/-- Derivative of an expression built with arithmetic and logarithms; side conditions by assumption. -/
macro "hdo" : tactic => `(tactic| repeat' first
  | with_reducible exact hasDerivAt_const _ _
  | with_reducible exact hasDerivAt_id' _
  | with_reducible assumption
  | with_reducible apply HasDerivAt.fun_sub
  | with_reducible apply HasDerivAt.fun_add
  | with_reducible apply HasDerivAt.fun_neg
  | with_reducible apply hasDerivAt_cxlogx
  | with_reducible apply hasDerivAt_xlogx
  | with_reducible apply hasDerivAt_divsq
  | with_reducible apply hasDerivAt_divcu
  | with_reducible apply hasDerivAt_quot
  | with_reducible apply HasDerivAt.fun_mul
  | with_reducible apply HasDerivAt.fun_pow
  | with_reducible apply HasDerivAt.log
  | apply mul_ne_zero
  | apply pow_ne_zero
  | exact two_ne_zero
  | (norm_num; done))

lemma differentiableAt_div' {α : Type} [Fintype α] {f g : (α → ℝ) → ℝ} {x : α → ℝ} (hf : DifferentiableAt ℝ f x)
    (hg : DifferentiableAt ℝ g x) (h : g x ≠ 0) : DifferentiableAt ℝ (fun y => f y / g y) x := by
  simp only [div_eq_mul_inv]
  exact hf.fun_mul (hg.inv h)

lemma differentiableAt_var {α : Type} [Fintype α] (i : α) (y : α → ℝ) :
    DifferentiableAt ℝ (fun y : α → ℝ => y i) y := differentiableAt_apply i y

/-- Differentiability of such an expression. -/
macro "ddo" : tactic => `(tactic| repeat' first
  | with_reducible exact differentiableAt_const _
  | with_reducible exact differentiableAt_var _ _
  | with_reducible assumption
  | with_reducible apply DifferentiableAt.fun_sub
  | with_reducible apply DifferentiableAt.fun_add
  | with_reducible apply DifferentiableAt.fun_neg
  | with_reducible apply differentiableAt_div'
  | with_reducible apply DifferentiableAt.fun_mul
  | with_reducible apply DifferentiableAt.fun_pow
  | with_reducible apply DifferentiableAt.log
  | apply mul_ne_zero
  | apply pow_ne_zero
  | exact two_ne_zero
  | (norm_num; done))

end

end Verif.Thermo.Ordering
