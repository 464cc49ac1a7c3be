import Verif.Thermo.OrderExist
import Verif.Thermo.OrderTables
import Verif.Thermo.StdState

/-!
The silicate liquid of rhyolite-MELTS 1.1 and 1.2, /repo/sources/liquid_CO2.c and liquid_CO2_H2O.c (line numbers
are those of liquid_CO2.c; the two files differ in the parameter table only): nineteen components, and one
dependent species, CaCO3, whose amount `s` is found by `order()` for the homogeneous reaction
CaSiO3 + CO2 = SiO2 + CaCO3.

This file is the model: species fractions, the Taylor expansion of the regular solution, and the arrays
`fillDGDR, …, fillD3GDP3`; and the proof that these arrays are the derivatives of the energy.

Real arithmetic; the parameter tables and the standard states are arbitrary; the derivatives with respect to the
model parameters (`dw`, used for calibration only) are not modelled.  `nSpecies` is 1 and its derivatives and the
mixed derivatives `d2xSpeciesdrds` are 0 (lines 580-601: `denom` is 12, `dDenomds` and `dcoeffds` are 0), so the
terms they multiply are left out.
-/

namespace Verif.Thermo.LiquidCO2

open Finset Filter Topology
open Verif.Thermo.Ordering
open Verif.Thermo.StdState (Std)
open Magma.Thermo.Mixing (R R_pos Mix)

noncomputable section

/-! ### Species -/

/-- `rANDsTOx`, lines 536-552: mole fractions of the twenty species. -/
def sp (r : Fin 18 → ℝ) (s : ℝ) (i : Fin 20) : ℝ :=
  if i = 0 then 1 - ∑ j, r j + s
  else if h : i.val - 1 < 18 then r ⟨i.val - 1, h⟩ - (if i = 10 ∨ i = 14 then s else 0)
  else s

/-- `dxSpeciesdr`, lines 568-571 and 443-449. -/
def dxdr (j : Fin 18) (i : Fin 20) : ℝ := if i = 0 then -1 else if i.val = j.val + 1 then 1 else 0

/-- `dxSpeciesds`, lines 574-582. -/
def dxds (i : Fin 20) : ℝ := if i = 0 ∨ i = 19 then 1 else if i = 10 ∨ i = 14 then -1 else 0

/-- `nH2O`, lines 357-358: the water component is number 18 of the liquid table (liq_struct_data.h). -/
abbrev w : Fin 20 := 18

/-! ### Taylor expansion -/

/-- One row of `taylorCoeff`, or the arrays `Gconst, gr, gs, grr, grs, gss` (lines 80-96, 1 + NR + NS + … entries). -/
structure Co where
  c : ℝ
  r : Fin 18 → ℝ
  s : ℝ
  rr : Fin 18 → Fin 18 → ℝ
  rs : Fin 18 → ℝ
  ss : ℝ

/-- The rows of `taylorCoeff`: one for each species, one for each pair of species `i < l` (lines 463-488). -/
structure Taylor where
  g : Fin 20 → Co
  w : Fin 20 → Fin 20 → Co

/-- Sum over the pairs `i < l`, in the loops of lines 721-815. -/
def pairs (f : Fin 20 → Fin 20 → ℝ) : ℝ := ∑ i, ∑ l ∈ Ioi i, f i l

/-- `loadTaylorCoefficients`, lines 684-838: `G` are the values for the species, `W` those for the pairs. -/
def load (T : Taylor) (G : Fin 20 → ℝ) (W : Fin 20 → Fin 20 → ℝ) : Co where
  c := ∑ i, (T.g i).c * G i + pairs fun i l => (T.w i l).c * W i l
  r j := ∑ i, (T.g i).r j * G i + pairs fun i l => (T.w i l).r j * W i l
  s := ∑ i, (T.g i).s * G i + pairs fun i l => (T.w i l).s * W i l
  rr j k := if j ≤ k then pairs fun i l => (T.w i l).rr j k * W i l
    else pairs fun i l => (T.w i l).rr k j * W i l
  rs j := pairs fun i l => (T.w i l).rs j * W i l
  ss := pairs fun i l => (T.w i l).ss * W i l

/-- The Taylor part of `fillG`, `fillS`, `fillV`, lines 844-854, 868-878, 889-899. -/
def ev (k : Co) (r : Fin 18 → ℝ) (s : ℝ) : ℝ :=
  k.c + ∑ i, (k.r i * r i + ∑ j ∈ Ici i, k.rr i j * r i * r j + k.rs i * r i * s) + (k.s * s + k.ss * s * s)

/-- The Taylor part of `fillDGDR`, `fillD2GDRDT` (negated), `fillD2GDRDP`, lines 908-912. -/
def evR (k : Co) (r : Fin 18 → ℝ) (s : ℝ) (i : Fin 18) : ℝ :=
  k.r i + k.rr i i * r i + ∑ j, k.rr i j * r j + k.rs i * s

/-- The Taylor part of `fillDGDS`, `fillD2GDSDT` (negated), `fillD2GDSDP`, lines 930-934. -/
def evS (k : Co) (r : Fin 18 → ℝ) (s : ℝ) : ℝ := k.s + k.ss * s + k.ss * s + ∑ j, k.rs j * r j

/-- The Taylor part of `fillD2GDR2`, `fillD3GDR2DT` (negated), `fillD3GDR2DP`, lines 981-987. -/
def evRR (k : Co) (i j : Fin 18) : ℝ := if i = j then 2 * k.rr i i else if i < j then k.rr i j else k.rr j i

/-- `fillD2GDT2` (before the division), `fillD2GDTDP`, `fillD2GDP2`, `fillD3GDT2DP`, …, lines 1283-1285. -/
def evL (k : Co) (r : Fin 18 → ℝ) (s : ℝ) : ℝ := k.c + ∑ i, k.r i * r i + k.s * s

/-! ### Parameters -/

/-- The tables: standard states of the species (`liquid[i].cur`, from `gibbs()`), the rows
`meltsAndCO2ModelParameters[k]` for the pairs and for the species, and the Taylor coefficients. -/
structure Par where
  std : Fin 20 → ℝ → ℝ → Std
  eh : Fin 20 → ℝ
  es : Fin 20 → ℝ
  ev : Fin 20 → ℝ
  wh : Fin 20 → Fin 20 → ℝ
  ws : Fin 20 → Fin 20 → ℝ
  wv : Fin 20 → Fin 20 → ℝ
  T : Taylor

variable (P : Par)

/-- `G(i)`, line 612. -/
def Par.G (t p : ℝ) (i : Fin 20) : ℝ := (P.std i t p).g + P.eh i - t * P.es i + (p - 1) * P.ev i
/-- `S(i)`, line 614. -/
def Par.S (t p : ℝ) (i : Fin 20) : ℝ := (P.std i t p).s + P.es i
/-- `V(i)`, line 615. -/
def Par.V (t p : ℝ) (i : Fin 20) : ℝ := (P.std i t p).v + P.ev i
/-- `W(k)`, line 610. -/
def Par.W (t p : ℝ) (i l : Fin 20) : ℝ := P.wh i l - t * P.ws i l + (p - 1) * P.wv i l

/-- `Gconst, gr, gs, grr, grs, gss`, lines 684-838. -/
def Par.kG (t p : ℝ) : Co := load P.T (P.G t p) (P.W t p)
/-- `Sconst, sr, ss, srr, srs, sss`, lines 684-838. -/
def Par.kS (t p : ℝ) : Co := load P.T (P.S t p) P.ws
/-- `Vconst, vr, vs, vrr, vrs, vss`, lines 684-838. -/
def Par.kV (t p : ℝ) : Co := load P.T (P.V t p) P.wv
/-- `CPconst, cpr, cps`, lines 684-718 (no contribution of the pairs). -/
def Par.kCp (t p : ℝ) : Co := load P.T (fun i => (P.std i t p).cp) fun _ _ => 0
@[inherit_doc Par.kCp]
def Par.kDcpdt (t p : ℝ) : Co := load P.T (fun i => (P.std i t p).dcpdt) fun _ _ => 0
@[inherit_doc Par.kCp]
def Par.kDvdt (t p : ℝ) : Co := load P.T (fun i => (P.std i t p).dvdt) fun _ _ => 0
@[inherit_doc Par.kCp]
def Par.kDvdp (t p : ℝ) : Co := load P.T (fun i => (P.std i t p).dvdp) fun _ _ => 0
@[inherit_doc Par.kCp]
def Par.kD2vdt2 (t p : ℝ) : Co := load P.T (fun i => (P.std i t p).d2vdt2) fun _ _ => 0
@[inherit_doc Par.kCp]
def Par.kD2vdtdp (t p : ℝ) : Co := load P.T (fun i => (P.std i t p).d2vdtdp) fun _ _ => 0
@[inherit_doc Par.kCp]
def Par.kD2vdp2 (t p : ℝ) : Co := load P.T (fun i => (P.std i t p).d2vdp2) fun _ _ => 0

/-! ### Configurational terms

`a i` stands for the guard `xSpecies[i] > 0.0`, `aw` for `xSpecies[nH2O] > 0.0 && xSpecies[nH2O] < 1.0`.  The
further guards `dxSpeciesdr[i][j] != 0.0` only skip terms that are zero. -/

open Classical in
/-- Lines 857-858. -/
def c0 (a : Fin 20 → Prop) (aw : Prop) (x : Fin 20 → ℝ) : ℝ :=
  (∑ i, if a i then x i * Real.log (x i) else 0)
  + if aw then x w * Real.log (x w) + (1 - x w) * Real.log (1 - x w) else 0

open Classical in
/-- Lines 917-919 and 938-944; `d` is the derivative of the species fractions. -/
def c1 (a : Fin 20 → Prop) (aw : Prop) (x d : Fin 20 → ℝ) : ℝ :=
  (∑ i, if a i then d i * (1 + Real.log (x i)) else 0)
  + if aw then d w * (Real.log (x w) - Real.log (1 - x w)) else 0

open Classical in
/-- Lines 992-996, 1013-1020, 1162-1173. -/
def c2 (a : Fin 20 → Prop) (aw : Prop) (x d e : Fin 20 → ℝ) : ℝ :=
  (∑ i, if a i then d i * e i / x i else 0)
  + if aw then d w * e w * (1 / x w + 1 / (1 - x w)) else 0

open Classical in
/-- Lines 1401-1406 (with `nH2O` for the index `i` of the last guard, which is out of range there), 1428-1440,
1505-1526, 1562-1582. -/
def c3 (a : Fin 20 → Prop) (aw : Prop) (x d e f : Fin 20 → ℝ) : ℝ :=
  (∑ i, if a i then -(d i * e i * f i / (x i * x i)) else 0)
  + if aw then -(d w * e w * f w * (1 / (x w * x w) - 1 / ((1 - x w) * (1 - x w)))) else 0

/-! ### The arrays -/

/-- Composition part of a vector of all variables. -/
def rOf (y : Var 18 1 → ℝ) : Fin 18 → ℝ := fun i => y (.inl (.inl i))
/-- Temperature. -/
abbrev tOf (y : Var 18 1 → ℝ) : ℝ := y (.inl iT)
/-- Pressure. -/
abbrev pOf (y : Var 18 1 → ℝ) : ℝ := y (.inl iP)
/-- Amount of the dependent species. -/
abbrev sOf (y : Var 18 1 → ℝ) : ℝ := y (.inr 0)
/-- Species fractions as a function of all variables. -/
def spOf (y : Var 18 1 → ℝ) : Fin 20 → ℝ := sp (rOf y) (sOf y)

/-- `fillG, fillS, fillDGDR, …, fillD3GDP3`, lines 840-1730, with the guards fixed to `a`, `aw`. -/
def tabs (a : Fin 20 → Prop) (aw : Prop) (y : Var 18 1 → ℝ) : Tables 18 1 :=
  let r := rOf y
  let t := tOf y
  let p := pOf y
  let s := sOf y
  let x := spOf y
  { g := ev (P.kG t p) r s + R * t * c0 a aw x
    s := ev (P.kS t p) r s - R * c0 a aw x
    dgdr := fun i => evR (P.kG t p) r s i + R * t * c1 a aw x (dxdr i)
    dgds := fun _ => evS (P.kG t p) r s + R * t * c1 a aw x dxds
    dgdt := -(ev (P.kS t p) r s - R * c0 a aw x)
    dgdp := ev (P.kV t p) r s
    d2gdr2 := fun i j => evRR (P.kG t p) i j + R * t * c2 a aw x (dxdr i) (dxdr j)
    d2gdrds := fun i _ => (P.kG t p).rs i + R * t * c2 a aw x (dxdr i) dxds
    d2gdrdt := fun i => -evR (P.kS t p) r s i + R * c1 a aw x (dxdr i)
    d2gdrdp := fun i => evR (P.kV t p) r s i
    d2gds2 := fun _ _ => 2 * (P.kG t p).ss + R * t * c2 a aw x dxds dxds
    d2gdsdt := fun _ => -evS (P.kS t p) r s + R * c1 a aw x dxds
    d2gdsdp := fun _ => evS (P.kV t p) r s
    d2gdt2 := evL (P.kCp t p) r s / -t
    d2gdtdp := evL (P.kDvdt t p) r s
    d2gdp2 := evL (P.kDvdp t p) r s
    d3gdr3 := fun i j k => R * t * c3 a aw x (dxdr i) (dxdr j) (dxdr k)
    d3gdr2ds := fun i j _ => R * t * c3 a aw x (dxdr i) (dxdr j) dxds
    d3gdr2dt := fun i j => -evRR (P.kS t p) i j + R * c2 a aw x (dxdr i) (dxdr j)
    d3gdr2dp := fun i j => evRR (P.kV t p) i j
    d3gdrds2 := fun i _ _ => R * t * c3 a aw x (dxdr i) dxds dxds
    d3gdrdsdt := fun i _ => -(P.kS t p).rs i + R * c2 a aw x (dxdr i) dxds
    d3gdrdsdp := fun i _ => (P.kV t p).rs i
    d3gdrdt2 := fun i => -(P.kCp t p).r i / t
    d3gdrdtdp := fun i => (P.kDvdt t p).r i
    d3gdrdp2 := fun i => (P.kDvdp t p).r i
    d3gds3 := fun _ _ _ => R * t * c3 a aw x dxds dxds dxds
    d3gds2dt := fun _ _ => -2 * (P.kS t p).ss + R * c2 a aw x dxds dxds
    d3gds2dp := fun _ _ => 2 * (P.kV t p).ss
    d3gdsdt2 := fun _ => -(P.kCp t p).s / t
    d3gdsdtdp := fun _ => (P.kDvdt t p).s
    d3gdsdp2 := fun _ => (P.kDvdp t p).s
    d3gdt3 := evL (P.kCp t p) r s / (t * t) - evL (P.kDcpdt t p) r s / t
    d3gdt2dp := evL (P.kD2vdt2 t p) r s
    d3gdtdp2 := evL (P.kD2vdtdp t p) r s
    d3gdp3 := evL (P.kD2vdp2 t p) r s }

/-- The guards as the code evaluates them. -/
def code (y : Var 18 1 → ℝ) : Tables 18 1 :=
  tabs P (fun i => 0 < spOf y i) (0 < spOf y w ∧ spOf y w < 1) y

/-! ### Specification of the standard states -/

/-- `f` is differentiable at `(t, p)` with partial derivatives `a`, `b`. -/
def D2 (f : ℝ → ℝ → ℝ) (t p a b : ℝ) : Prop :=
  HasFDerivAt (fun u : ℝ × ℝ => f u.1 u.2)
    (a • ContinuousLinearMap.fst ℝ ℝ ℝ + b • ContinuousLinearMap.snd ℝ ℝ ℝ) (t, p)

/-- A standard state whose quantities are differentiable and are the derivatives they claim to be. -/
structure Smooth (F : ℝ → ℝ → Std) (t p : ℝ) : Prop where
  g : D2 (fun t p => (F t p).g) t p (-(F t p).s) (F t p).v
  s : D2 (fun t p => (F t p).s) t p ((F t p).cp / t) (-(F t p).dvdt)
  v : D2 (fun t p => (F t p).v) t p (F t p).dvdt (F t p).dvdp
  cp : D2 (fun t p => (F t p).cp) t p (F t p).dcpdt (-t * (F t p).d2vdt2)
  dvdt : D2 (fun t p => (F t p).dvdt) t p (F t p).d2vdt2 (F t p).d2vdtdp
  dvdp : D2 (fun t p => (F t p).dvdp) t p (F t p).d2vdtdp (F t p).d2vdp2

/-! ### Derivatives of the Taylor part -/

lemma D2.const (c t p : ℝ) : D2 (fun _ _ => c) t p 0 0 := by
  unfold D2
  simpa using hasFDerivAt_const c (t, p)

lemma D2.congr {f : ℝ → ℝ → ℝ} {t p a b a' b' : ℝ} (h : D2 f t p a b) (ha : a = a') (hb : b = b') :
    D2 f t p a' b' := by subst ha hb; exact h

lemma D2.fn {f g : ℝ → ℝ → ℝ} {t p a b : ℝ} (h : D2 f t p a b) (e : ∀ t p, g t p = f t p) : D2 g t p a b := by
  have : g = f := funext fun t => funext fun p => e t p
  subst this; exact h

lemma D2.add {f g : ℝ → ℝ → ℝ} {t p a b a' b' : ℝ} (h : D2 f t p a b) (h' : D2 g t p a' b') :
    D2 (fun t p => f t p + g t p) t p (a + a') (b + b') := by
  refine (HasFDerivAt.add h h').congr_fderiv ?_
  ext <;> simp

lemma D2.cmul {f : ℝ → ℝ → ℝ} {t p a b : ℝ} (h : D2 f t p a b) (c : ℝ) :
    D2 (fun t p => c * f t p) t p (c * a) (c * b) := by
  refine (HasFDerivAt.const_mul h c).congr_fderiv ?_
  ext <;> simp

lemma D2.sum {β : Type} {s : Finset β} {f : β → ℝ → ℝ → ℝ} {t p : ℝ} {a b : β → ℝ}
    (h : ∀ i ∈ s, D2 (f i) t p (a i) (b i)) :
    D2 (fun t p => ∑ i ∈ s, f i t p) t p (∑ i ∈ s, a i) (∑ i ∈ s, b i) := by
  unfold D2
  refine (HasFDerivAt.fun_sum h).congr_fderiv ?_
  ext <;> simp [_root_.sum_apply]

lemma D2.lin (hH hS hV t p : ℝ) : D2 (fun t p => hH - t * hS + (p - 1) * hV) t p (-hS) hV := by
  unfold D2
  have h1 : HasFDerivAt (fun u : ℝ × ℝ => u.1) (ContinuousLinearMap.fst ℝ ℝ ℝ) (t, p) := hasFDerivAt_fst
  have h2 : HasFDerivAt (fun u : ℝ × ℝ => u.2) (ContinuousLinearMap.snd ℝ ℝ ℝ) (t, p) := hasFDerivAt_snd
  refine (((h1.mul_const hS).const_sub hH).add ((h2.sub_const 1).mul_const hV)).congr_fderiv ?_
  ext <;> simp

/-- A gradient by its composition, temperature, pressure and order parts. -/
def mk (r : Fin 18 → ℝ) (t p s : ℝ) : Var 18 1 → ℝ := Sum.elim (Sum.elim r ![t, p]) fun _ => s

lemma ext_var {f g : Var 18 1 → ℝ} (hr : ∀ i, f (.inl (.inl i)) = g (.inl (.inl i)))
    (ht : f (.inl iT) = g (.inl iT)) (hp : f (.inl iP) = g (.inl iP)) (hs : f (.inr 0) = g (.inr 0)) : f = g := by
  funext a
  rcases a with (a | a) | a
  · exact hr a
  · fin_cases a
    · exact ht
    · exact hp
  · fin_cases a; exact hs

lemma D2.gr {f : ℝ → ℝ → ℝ} {y : Var 18 1 → ℝ} {a b : ℝ} (h : D2 f (tOf y) (pOf y) a b) :
    Gr (fun y => f (tOf y) (pOf y)) y (mk 0 a b 0) := by
  unfold Gr
  have h1 : HasFDerivAt (fun y : Var 18 1 → ℝ => (tOf y, pOf y))
      ((ContinuousLinearMap.proj (R := ℝ) (φ := fun _ : Var 18 1 => ℝ) (.inl iT)).prod
        (ContinuousLinearMap.proj (R := ℝ) (φ := fun _ : Var 18 1 => ℝ) (.inl iP))) y :=
    HasFDerivAt.prodMk (f₁ := fun y : Var 18 1 → ℝ => y (.inl iT)) (f₂ := fun y : Var 18 1 → ℝ => y (.inl iP))
      (ContinuousLinearMap.hasFDerivAt (ContinuousLinearMap.proj (R := ℝ) (φ := fun _ : Var 18 1 => ℝ) (.inl iT)))
      (ContinuousLinearMap.hasFDerivAt (ContinuousLinearMap.proj (R := ℝ) (φ := fun _ : Var 18 1 => ℝ) (.inl iP)))
  have h' : HasFDerivAt (fun u : ℝ × ℝ => f u.1 u.2)
    (a • ContinuousLinearMap.fst ℝ ℝ ℝ + b • ContinuousLinearMap.snd ℝ ℝ ℝ) (tOf y, pOf y) := h
  refine (HasFDerivAt.comp (g := fun u : ℝ × ℝ => f u.1 u.2) (f := fun y : Var 18 1 → ℝ => (tOf y, pOf y)) y h'
    h1).congr_fderiv ?_
  ext v
  simp [mk, _root_.sum_apply, Fintype.sum_sum_type, Fin.sum_univ_two]

/-- The arrays `k` are differentiable in temperature and pressure, with derivatives `cT`, `cP`. -/
structure CoD (k : ℝ → ℝ → Co) (t p : ℝ) (cT cP : Co) : Prop where
  c : D2 (fun t p => (k t p).c) t p cT.c cP.c
  r : ∀ i, D2 (fun t p => (k t p).r i) t p (cT.r i) (cP.r i)
  s : D2 (fun t p => (k t p).s) t p cT.s cP.s
  rr : ∀ i j, D2 (fun t p => (k t p).rr i j) t p (cT.rr i j) (cP.rr i j)
  rs : ∀ i, D2 (fun t p => (k t p).rs i) t p (cT.rs i) (cP.rs i)
  ss : D2 (fun t p => (k t p).ss) t p cT.ss cP.ss

lemma D2.pairs {b : Fin 20 → Fin 20 → ℝ} {W : Fin 20 → Fin 20 → ℝ → ℝ → ℝ} {t p : ℝ} {wT wP : Fin 20 → Fin 20 → ℝ}
    (h : ∀ i l, D2 (W i l) t p (wT i l) (wP i l)) :
    D2 (fun t p => pairs fun i l => b i l * W i l t p) t p (pairs fun i l => b i l * wT i l)
      (pairs fun i l => b i l * wP i l) :=
  D2.sum fun i _ => D2.sum fun l _ => (h i l).cmul (b i l)

lemma coD_load (T : Taylor) {G : Fin 20 → ℝ → ℝ → ℝ} {W : Fin 20 → Fin 20 → ℝ → ℝ → ℝ} {t p : ℝ}
    {gT gP : Fin 20 → ℝ} {wT wP : Fin 20 → Fin 20 → ℝ} (hG : ∀ i, D2 (G i) t p (gT i) (gP i))
    (hW : ∀ i l, D2 (W i l) t p (wT i l) (wP i l)) :
    CoD (fun t p => load T (fun i => G i t p) fun i l => W i l t p) t p (load T gT wT) (load T gP wP) := by
  constructor
  · exact (D2.sum fun i _ => (hG i).cmul _).add (D2.pairs hW)
  · exact fun j => (D2.sum fun i _ => (hG i).cmul _).add (D2.pairs hW)
  · exact (D2.sum fun i _ => (hG i).cmul _).add (D2.pairs hW)
  · intro j k
    by_cases h : j ≤ k
    · simp only [load, h, if_true]; exact D2.pairs hW
    · simp only [load, h, if_false]; exact D2.pairs hW
  · exact fun j => D2.pairs (b := fun i l => (T.w i l).rs j) hW
  · exact D2.pairs (b := fun i l => (T.w i l).ss) hW

lemma gr_r (y : Var 18 1 → ℝ) (i : Fin 18) :
    Gr (fun y => rOf y i) y (mk (fun j => if j = i then 1 else 0) 0 0 0) := by
  refine (Gr.coord y (.inl (.inl i))).congr_d (ext_var ?_ ?_ ?_ ?_) <;> simp [mk]

lemma gr_s (y : Var 18 1 → ℝ) : Gr sOf y (mk 0 0 0 1) := by
  refine (Gr.coord y (.inr 0)).congr_d (ext_var ?_ ?_ ?_ ?_) <;> simp [mk]

lemma gr_t (y : Var 18 1 → ℝ) : Gr tOf y (mk 0 1 0 0) := by
  refine (Gr.coord y (.inl iT)).congr_d (ext_var ?_ ?_ ?_ ?_) <;> simp [mk]

/-- The array `rr` is symmetric, as `loadTaylorCoefficients` leaves it (lines 824-829). -/
def Co.Sym (k : Co) : Prop := ∀ i j, k.rr i j = k.rr j i

lemma load_sym (T : Taylor) (G : Fin 20 → ℝ) (W : Fin 20 → Fin 20 → ℝ) : (load T G W).Sym := by
  intro i j
  simp only [load]
  rcases lt_trichotomy i j with h | h | h
  · rw [if_pos h.le, if_neg (not_le.2 h)]
  · rw [h]
  · rw [if_neg (not_le.2 h), if_pos h.le]

lemma tri_sum (f : Fin 18 → Fin 18 → ℝ) (h : ∀ i j, f i j = f j i) :
    ∑ i, ∑ j ∈ Ici i, f i j = (∑ i, ∑ j, f i j + ∑ i, f i i) / 2 := by
  have h1 : ∀ i, ∑ j, f i j = ∑ j ∈ Ici i, f i j + ∑ j ∈ Iio i, f i j := by
    intro i
    rw [← sum_union]
    · congr 1; ext j; simp [le_or_gt]
    · rw [disjoint_left]; intro j; simp
  have h2 : ∀ i, ∑ j ∈ Ici i, f i j = f i i + ∑ j ∈ Ioi i, f i j := by
    intro i
    rw [← Ioi_insert, sum_insert (by simp)]
  have h3 : ∑ i, ∑ j ∈ Iio i, f i j = ∑ i, ∑ j ∈ Ioi i, f i j := by
    rw [sum_comm' (t' := univ) (s' := fun j => Ioi j) (by simp)]
    exact sum_congr rfl fun i _ => sum_congr rfl fun j _ => h j i
  simp only [h1, sum_add_distrib, h3]
  simp only [h2, sum_add_distrib]
  ring

lemma ev_eq {k : Co} (h : k.Sym) (r : Fin 18 → ℝ) (s : ℝ) :
    ev k r s = k.c + ∑ i, k.r i * r i + (∑ i, ∑ j, k.rr i j * r i * r j + ∑ i, k.rr i i * r i * r i) / 2
      + (∑ i, k.rs i * r i) * s + (k.s * s + k.ss * s * s) := by
  unfold ev
  rw [← tri_sum (fun i j => k.rr i j * r i * r j) fun i j => by rw [h i j]; ring]
  simp only [sum_add_distrib, sum_mul]
  ring

lemma gr_ev {k : ℝ → ℝ → Co} {y : Var 18 1 → ℝ} {cT cP : Co} (h : CoD k (tOf y) (pOf y) cT cP)
    (hk : ∀ t p, (k t p).Sym) (hT : cT.Sym) (hP : cP.Sym) :
    Gr (fun y => ev (k (tOf y) (pOf y)) (rOf y) (sOf y)) y
      (mk (evR (k (tOf y) (pOf y)) (rOf y) (sOf y)) (ev cT (rOf y) (sOf y)) (ev cP (rOf y) (sOf y))
        (evS (k (tOf y) (pOf y)) (rOf y) (sOf y))) := by
  have e : ∀ y : Var 18 1 → ℝ, ev (k (tOf y) (pOf y)) (rOf y) (sOf y) = _ := fun y => ev_eq (hk _ _) _ _
  simp only [e, ev_eq hT, ev_eq hP]
  have hs := gr_s y
  have h1 := (((h.c.gr.add (Gr.sum (s := univ) fun i _ => (h.r i).gr.mul (gr_r y i))).add
    (Gr.mulc ((Gr.sum (s := univ) fun i _ => Gr.sum (s := univ) fun j _ =>
      ((h.rr i j).gr.mul (gr_r y i)).mul (gr_r y j)).add
      (Gr.sum (s := univ) fun i _ => ((h.rr i i).gr.mul (gr_r y i)).mul (gr_r y i))) (1 / 2))).add
    ((Gr.sum (s := univ) fun i _ => (h.rs i).gr.mul (gr_r y i)).mul hs)).add
    ((h.s.gr.mul hs).add ((h.ss.gr.mul hs).mul hs))
  refine (h1.congr_d (ext_var ?_ ?_ ?_ ?_)).congr (Eventually.of_forall fun y' => ?_)
  · intro i
    have e1 : ∑ b, (k (tOf y) (pOf y)).rr b i * rOf y b = ∑ b, (k (tOf y) (pOf y)).rr i b * rOf y b :=
      sum_congr rfl fun b _ => by rw [hk]
    simp only [mk, Sum.elim_inl, Sum.elim_inr, Pi.zero_apply, zero_mul, zero_add, add_zero, mul_zero, mul_ite,
      mul_one, ite_mul, sum_add_distrib, sum_ite_eq, mem_univ, if_true, sum_const_zero]
    rw [Finset.sum_comm]
    simp only [sum_ite_eq, mem_univ, if_true, e1]
    unfold evR
    ring
  · simp only [mk, Sum.elim_inl, Sum.elim_inr, iT, Matrix.cons_val, zero_mul, zero_add, add_zero, mul_zero, sum_add_distrib,
      sum_const_zero]
    ring
  · simp only [mk, Sum.elim_inl, Sum.elim_inr, iP, Matrix.cons_val, zero_mul, zero_add, add_zero, mul_zero, sum_add_distrib,
      sum_const_zero]
    ring
  · simp only [mk, Sum.elim_inl, Sum.elim_inr, zero_mul, zero_add, add_zero, mul_zero, sum_add_distrib,
      sum_const_zero]
    unfold evS
    ring
  · ring

lemma gr_evR {k : ℝ → ℝ → Co} {y : Var 18 1 → ℝ} {cT cP : Co} (h : CoD k (tOf y) (pOf y) cT cP)
    (hk : ∀ t p, (k t p).Sym) (i : Fin 18) :
    Gr (fun y => evR (k (tOf y) (pOf y)) (rOf y) (sOf y) i) y
      (mk (evRR (k (tOf y) (pOf y)) i) (evR cT (rOf y) (sOf y) i) (evR cP (rOf y) (sOf y) i)
        ((k (tOf y) (pOf y)).rs i)) := by
  have h1 := (((h.r i).gr.add ((h.rr i i).gr.mul (gr_r y i))).add
    (Gr.sum (s := univ) fun j _ => (h.rr i j).gr.mul (gr_r y j))).add ((h.rs i).gr.mul (gr_s y))
  refine (h1.congr_d (ext_var ?_ ?_ ?_ ?_)).congr (Eventually.of_forall fun y' => rfl)
  · intro j
    simp only [mk, Sum.elim_inl, Sum.elim_inr, Pi.zero_apply, zero_mul, zero_add, add_zero, mul_zero, mul_ite,
      mul_one, sum_ite_eq, mem_univ, if_true]
    unfold evRR
    rcases lt_trichotomy i j with e | e | e
    · rw [if_neg e.ne', if_neg e.ne, if_pos e]; ring
    · subst e; simp; ring
    · rw [if_neg e.ne, if_neg e.ne', if_neg (not_lt.2 e.le), hk]; ring
  · simp only [mk, Sum.elim_inl, Sum.elim_inr, iT, Matrix.cons_val, zero_mul, zero_add, add_zero, mul_zero]
    rfl
  · simp only [mk, Sum.elim_inl, Sum.elim_inr, iP, Matrix.cons_val, zero_mul, zero_add, add_zero, mul_zero]
    rfl
  · simp only [mk, Sum.elim_inl, Sum.elim_inr, zero_mul, zero_add, add_zero, mul_zero, mul_one, sum_const_zero]

lemma gr_evS {k : ℝ → ℝ → Co} {y : Var 18 1 → ℝ} {cT cP : Co} (h : CoD k (tOf y) (pOf y) cT cP) :
    Gr (fun y => evS (k (tOf y) (pOf y)) (rOf y) (sOf y)) y
      (mk (k (tOf y) (pOf y)).rs (evS cT (rOf y) (sOf y)) (evS cP (rOf y) (sOf y))
        (2 * (k (tOf y) (pOf y)).ss)) := by
  have h1 := ((h.s.gr.add (h.ss.gr.mul (gr_s y))).add (h.ss.gr.mul (gr_s y))).add
    (Gr.sum (s := univ) fun j _ => (h.rs j).gr.mul (gr_r y j))
  refine (h1.congr_d (ext_var ?_ ?_ ?_ ?_)).congr (Eventually.of_forall fun y' => rfl)
  · intro j
    simp only [mk, Sum.elim_inl, Sum.elim_inr, Pi.zero_apply, zero_mul, zero_add, add_zero, mul_zero, mul_ite,
      mul_one, sum_ite_eq, mem_univ, if_true]
  · simp only [mk, Sum.elim_inl, Sum.elim_inr, iT, Matrix.cons_val, zero_mul, zero_add, add_zero, mul_zero]
    rfl
  · simp only [mk, Sum.elim_inl, Sum.elim_inr, iP, Matrix.cons_val, zero_mul, zero_add, add_zero, mul_zero]
    rfl
  · simp only [mk, Sum.elim_inl, Sum.elim_inr, zero_mul, zero_add, add_zero, mul_zero, mul_one, sum_const_zero]
    ring

lemma gr_evL {k : ℝ → ℝ → Co} {y : Var 18 1 → ℝ} {cT cP : Co} (h : CoD k (tOf y) (pOf y) cT cP) :
    Gr (fun y => evL (k (tOf y) (pOf y)) (rOf y) (sOf y)) y
      (mk (k (tOf y) (pOf y)).r (evL cT (rOf y) (sOf y)) (evL cP (rOf y) (sOf y)) (k (tOf y) (pOf y)).s) := by
  have h1 := (h.c.gr.add (Gr.sum (s := univ) fun j _ => (h.r j).gr.mul (gr_r y j))).add (h.s.gr.mul (gr_s y))
  refine (h1.congr_d (ext_var ?_ ?_ ?_ ?_)).congr (Eventually.of_forall fun y' => rfl)
  · intro j
    simp only [mk, Sum.elim_inl, Sum.elim_inr, Pi.zero_apply, zero_mul, zero_add, add_zero, mul_zero, mul_ite,
      mul_one, sum_ite_eq, mem_univ, if_true]
  · simp only [mk, Sum.elim_inl, Sum.elim_inr, iT, Matrix.cons_val, zero_mul, zero_add, add_zero, mul_zero]
    rfl
  · simp only [mk, Sum.elim_inl, Sum.elim_inr, iP, Matrix.cons_val, zero_mul, zero_add, add_zero, mul_zero]
    rfl
  · simp only [mk, Sum.elim_inl, Sum.elim_inr, zero_mul, zero_add, add_zero, mul_zero, mul_one, sum_const_zero]

lemma gr_tp {f : ℝ → ℝ → ℝ} {y : Var 18 1 → ℝ} {a b : ℝ} (h : D2 f (tOf y) (pOf y) a b) :
    Gr (fun y => f (tOf y) (pOf y)) y (mk 0 a b 0) := h.gr

lemma gr_evRR {k : ℝ → ℝ → Co} {y : Var 18 1 → ℝ} {cT cP : Co} (h : CoD k (tOf y) (pOf y) cT cP)
    (i j : Fin 18) : Gr (fun y => evRR (k (tOf y) (pOf y)) i j) y (mk 0 (evRR cT i j) (evRR cP i j) 0) := by
  unfold evRR
  split_ifs
  · exact (h.rr i i).cmul 2 |>.gr
  · exact (h.rr i j).gr
  · exact (h.rr j i).gr

/-! ### Derivatives of the configurational part -/

/-- Derivative of the species fractions with respect to each variable. -/
def dsp (i : Fin 20) : Var 18 1 → ℝ := mk (fun j => dxdr j i) 0 0 (dxds i)

lemma gr_sp (y : Var 18 1 → ℝ) (i : Fin 20) : Gr (fun y => spOf y i) y (dsp i) := by
  unfold spOf sp
  by_cases h0 : i = 0
  · subst h0
    have h1 := ((Gr.sum (s := univ) fun j _ => gr_r y j).mulc (-1)).add (gr_s y)
    have h2 : Gr (fun _ : Var 18 1 → ℝ => (1 : ℝ)) y 0 := by
      unfold Gr; simpa using hasFDerivAt_const (1 : ℝ) y
    refine ((h2.add h1).congr_d (ext_var ?_ ?_ ?_ ?_)).congr (Eventually.of_forall fun y' => ?_)
    · intro j; simp [mk, dsp, dxdr]
    · simp [mk, dsp, iT]
    · simp [mk, dsp, iP]
    · simp [mk, dsp, dxds]
    · simp; ring
  · by_cases h1 : i.val - 1 < 18
    · have hj : i.val = (⟨i.val - 1, h1⟩ : Fin 18).val + 1 := by
        have : i.val ≠ 0 := fun e => h0 (Fin.ext e)
        simp; omega
      have g1 := (gr_r y ⟨i.val - 1, h1⟩).add ((gr_s y).mulc (if i = 10 ∨ i = 14 then -1 else 0))
      refine (g1.congr_d (ext_var ?_ ?_ ?_ ?_)).congr (Eventually.of_forall fun y' => ?_)
      · intro j
        simp only [mk, dsp, dxdr, h0, Sum.elim_inl, if_false]
        have : i.val = j.val + 1 ↔ j = ⟨i.val - 1, h1⟩ := by
          constructor
          · intro e; apply Fin.ext; simp; omega
          · intro e; subst e; exact hj
        simp [this]
      · simp [mk, dsp, iT]
      · simp [mk, dsp, iP]
      · have : i ≠ 19 := by intro e; subst e; exact absurd h1 (by decide)
        simp [mk, dsp, dxds, h0, this]
      · simp only [h0, if_false, h1, dif_pos]
        split_ifs <;> ring
    · have h19 : i = 19 := by apply Fin.ext; have := i.isLt; simp; omega
      subst h19
      refine ((gr_s y).congr_d (ext_var ?_ ?_ ?_ ?_)).congr (Eventually.of_forall fun y' => ?_)
      · intro j
        have : (19 : Fin 20).val ≠ j.val + 1 := by have := j.isLt; simp; omega
        have h' := j.isLt
        simp only [mk, dsp, dxdr, Sum.elim_inl, this, if_false]
        simp
      · simp [mk, dsp, iT]
      · simp [mk, dsp, iP]
      · simp [mk, dsp, dxds]
      · simp

/-- Guards that hold only where the logarithms and quotients are defined. -/
def Safe (a : Fin 20 → Prop) (aw : Prop) (x : Fin 20 → ℝ) : Prop :=
  (∀ i, a i → 0 < x i) ∧ (aw → 0 < x w ∧ x w < 1)

lemma gr_one {f : ℝ → ℝ} {y : Var 18 1 → ℝ} {i : Fin 20} {c : ℝ} (h : HasDerivAt f c (spOf y i)) :
    Gr (fun y => f (spOf y i)) y (fun v => c * dsp i v) := by
  have h1 : HasFDerivAt (fun y => f (spOf y i)) _ y := HasDerivAt.comp_hasFDerivAt y h (gr_sp y i)
  unfold Gr
  refine h1.congr_fderiv ?_
  refine ContinuousLinearMap.ext fun v => ?_
  simp [_root_.sum_apply, Finset.mul_sum, mul_assoc]

open Classical in
lemma gr_conf {a : Fin 20 → Prop} {aw : Prop} {y : Var 18 1 → ℝ} {f f' : Fin 20 → ℝ → ℝ} {g g' : ℝ → ℝ}
    (hs : Safe a aw (spOf y)) (hf : ∀ i, ∀ x > 0, HasDerivAt (f i) (f' i x) x)
    (hg : ∀ x > 0, x < 1 → HasDerivAt g (g' x) x) :
    Gr (fun y => (∑ i, if a i then f i (spOf y i) else 0) + if aw then g (spOf y w) else 0) y
      (fun v => (∑ i, if a i then f' i (spOf y i) * dsp i v else 0)
        + if aw then g' (spOf y w) * dsp w v else 0) := by
  have z : Gr (fun _ : Var 18 1 → ℝ => (0 : ℝ)) y (fun _ => 0) := by
    unfold Gr; simpa using hasFDerivAt_const (0 : ℝ) y
  refine Gr.add (Gr.sum fun i _ => ?_) ?_
  · by_cases h : a i
    · simp only [h, if_true]; exact gr_one (hf i _ (hs.1 i h))
    · simpa only [h, if_false] using z
  · by_cases h : aw
    · simp only [h, if_true]; exact gr_one (hg _ (hs.2 h).1 (hs.2 h).2)
    · simpa only [h, if_false] using z

lemma gr_c0 {a : Fin 20 → Prop} {aw : Prop} {y : Var 18 1 → ℝ} (hs : Safe a aw (spOf y)) :
    Gr (fun y => c0 a aw (spOf y)) y (fun v => c1 a aw (spOf y) fun i => dsp i v) := by
  refine (gr_conf (f := fun _ x => x * Real.log x) (f' := fun _ x => 1 + Real.log x)
    (g := fun x => x * Real.log x + (1 - x) * Real.log (1 - x))
    (g' := fun x => Real.log x - Real.log (1 - x)) hs (fun i x hx => ?_) fun x hx hx' => ?_).congr_d ?_
  · exact (Real.hasDerivAt_mul_log hx.ne').congr_deriv (by ring)
  · have h1 : HasDerivAt (fun x : ℝ => 1 - x) (-1) x := by simpa using (hasDerivAt_id x).const_sub 1
    exact ((Real.hasDerivAt_mul_log hx.ne').add
      ((Real.hasDerivAt_mul_log (sub_pos.2 hx').ne').comp x h1)).congr_deriv (by ring)
  · funext v
    unfold c1
    congr 1
    · exact sum_congr rfl fun i _ => by split_ifs <;> ring
    · split_ifs <;> ring

lemma gr_c1 {a : Fin 20 → Prop} {aw : Prop} {y : Var 18 1 → ℝ} (hs : Safe a aw (spOf y)) (d : Fin 20 → ℝ) :
    Gr (fun y => c1 a aw (spOf y) d) y (fun v => c2 a aw (spOf y) d fun i => dsp i v) := by
  refine (gr_conf (f := fun i x => d i * (1 + Real.log x)) (f' := fun i x => d i / x)
    (g := fun x => d w * (Real.log x - Real.log (1 - x)))
    (g' := fun x => d w * (1 / x + 1 / (1 - x))) hs (fun i x hx => ?_) fun x hx hx' => ?_).congr_d ?_
  · exact (((Real.hasDerivAt_log hx.ne').const_add 1).const_mul (d i)).congr_deriv (by ring)
  · have h1 : HasDerivAt (fun x : ℝ => 1 - x) (-1) x := by simpa using (hasDerivAt_id x).const_sub 1
    exact (((Real.hasDerivAt_log hx.ne').sub
      ((Real.hasDerivAt_log (sub_pos.2 hx').ne').comp x h1)).const_mul (d w)).congr_deriv (by ring)
  · funext v
    unfold c2
    congr 1
    · exact sum_congr rfl fun i _ => by split_ifs <;> ring
    · split_ifs <;> ring

lemma gr_c2 {a : Fin 20 → Prop} {aw : Prop} {y : Var 18 1 → ℝ} (hs : Safe a aw (spOf y)) (d e : Fin 20 → ℝ) :
    Gr (fun y => c2 a aw (spOf y) d e) y (fun v => c3 a aw (spOf y) d e fun i => dsp i v) := by
  refine (gr_conf (f := fun i x => d i * e i / x) (f' := fun i x => -(d i * e i / (x * x)))
    (g := fun x => d w * e w * (1 / x + 1 / (1 - x)))
    (g' := fun x => -(d w * e w * (1 / (x * x) - 1 / ((1 - x) * (1 - x))))) hs (fun i x hx => ?_)
    fun x hx hx' => ?_).congr_d ?_
  · simp only [div_eq_mul_inv]
    exact ((hasDerivAt_inv hx.ne').const_mul _).congr_deriv (by ring)
  · have h1 : HasDerivAt (fun x : ℝ => 1 - x) (-1) x := by simpa using (hasDerivAt_id x).const_sub 1
    simp only [one_div]
    exact (((hasDerivAt_inv hx.ne').add
      ((hasDerivAt_inv (sub_pos.2 hx').ne').comp x h1)).const_mul _).congr_deriv (by ring)
  · funext v
    unfold c3
    congr 1
    · exact sum_congr rfl fun i _ => by split_ifs <;> ring
    · split_ifs <;> ring

/-! ### Scaling -/

/-- All coefficients multiplied by a number. -/
def Co.mulc (c : ℝ) (k : Co) : Co where
  c := c * k.c
  r i := c * k.r i
  s := c * k.s
  rr i j := c * k.rr i j
  rs i := c * k.rs i
  ss := c * k.ss

lemma load_mulc (T : Taylor) (c : ℝ) (G : Fin 20 → ℝ) (W : Fin 20 → Fin 20 → ℝ) :
    load T (fun i => c * G i) (fun i l => c * W i l) = (load T G W).mulc c := by
  have h : ∀ b : Fin 20 → Fin 20 → ℝ, pairs (fun i l => b i l * (c * W i l)) = c * pairs fun i l => b i l * W i l := by
    intro b
    simp only [pairs, mul_sum]
    exact sum_congr rfl fun i _ => sum_congr rfl fun l _ => by ring
  have h' : ∀ b : Fin 20 → ℝ, ∑ i, b i * (c * G i) = c * ∑ i, b i * G i := by
    intro b
    rw [mul_sum]
    exact sum_congr rfl fun i _ => by ring
  simp only [load, Co.mulc, Co.mk.injEq, h, h', mul_add, and_true, true_and]
  funext j k
  split_ifs <;> rfl

lemma ev_mulc (c : ℝ) (k : Co) (r : Fin 18 → ℝ) (s : ℝ) : ev (k.mulc c) r s = c * ev k r s := by
  simp only [ev, Co.mulc, mul_add, mul_sum, sum_add_distrib, mul_assoc]

lemma evR_mulc (c : ℝ) (k : Co) (r : Fin 18 → ℝ) (s : ℝ) (i : Fin 18) :
    evR (k.mulc c) r s i = c * evR k r s i := by
  simp only [evR, Co.mulc, mul_add, mul_sum, mul_assoc]

lemma evS_mulc (c : ℝ) (k : Co) (r : Fin 18 → ℝ) (s : ℝ) : evS (k.mulc c) r s = c * evS k r s := by
  simp only [evS, Co.mulc, mul_add, mul_sum, mul_assoc]

lemma evRR_mulc (c : ℝ) (k : Co) (i j : Fin 18) : evRR (k.mulc c) i j = c * evRR k i j := by
  simp only [evRR, Co.mulc]
  split_ifs <;> ring

lemma evL_mulc (c : ℝ) (k : Co) (r : Fin 18 → ℝ) (s : ℝ) : evL (k.mulc c) r s = c * evL k r s := by
  simp only [evL, Co.mulc, mul_add, mul_sum, mul_assoc]

/-- No contribution of the pairs. -/
def Co.Flat (k : Co) : Prop := (∀ i j, k.rr i j = 0) ∧ (∀ i, k.rs i = 0) ∧ k.ss = 0

lemma load_flat (T : Taylor) (G : Fin 20 → ℝ) : (load T G fun _ _ => 0).Flat := by
  simp [Co.Flat, load, pairs]

lemma Co.Flat.ev {k : Co} (h : k.Flat) (r : Fin 18 → ℝ) (s : ℝ) : ev k r s = evL k r s := by
  simp [LiquidCO2.ev, evL, h.1, h.2.1, h.2.2, sum_add_distrib]

lemma Co.Flat.evR {k : Co} (h : k.Flat) (r : Fin 18 → ℝ) (s : ℝ) (i : Fin 18) : evR k r s i = k.r i := by
  simp [LiquidCO2.evR, h.1, h.2.1]

lemma Co.Flat.evS {k : Co} (h : k.Flat) (r : Fin 18 → ℝ) (s : ℝ) : evS k r s = k.s := by
  simp [LiquidCO2.evS, h.2.1, h.2.2]

lemma Co.Flat.evRR {k : Co} (h : k.Flat) (i j : Fin 18) : evRR k i j = 0 := by
  simp [LiquidCO2.evRR, h.1]

/-! ### Derivatives of the coefficient arrays -/

variable {P}

lemma coD_kG {t p : ℝ} (h : ∀ i, Smooth (P.std i) t p) :
    CoD P.kG t p ((P.kS t p).mulc (-1)) (P.kV t p) := by
  have := coD_load P.T (t := t) (p := p) (G := fun i t p => P.G t p i) (W := fun i l t p => P.W t p i l)
    (gT := fun i => -1 * P.S t p i) (gP := fun i => P.V t p i) (wT := fun i l => -1 * P.ws i l) (wP := P.wv)
    (fun i => ?_) (fun i l => ?_)
  · rw [load_mulc] at this; exact this
  · have := (h i).g.add (D2.lin (P.eh i) (P.es i) (P.ev i) t p)
    refine (D2.congr this ?_ rfl).fn ?_
    · simp [Par.S]; ring
    · intro t p; simp [Par.G]; ring
  · exact (D2.lin _ _ _ t p).congr (by ring) rfl

lemma coD_kS {t p : ℝ} (h : ∀ i, Smooth (P.std i) t p) :
    CoD P.kS t p ((P.kCp t p).mulc (1 / t)) ((P.kDvdt t p).mulc (-1)) := by
  have := coD_load P.T (t := t) (p := p) (G := fun i t p => P.S t p i) (W := fun i l _ _ => P.ws i l)
    (gT := fun i => 1 / t * (P.std i t p).cp) (gP := fun i => -1 * (P.std i t p).dvdt)
    (wT := fun _ _ => 1 / t * 0) (wP := fun _ _ => -1 * 0) (fun i => ?_) (fun i l => ?_)
  · rw [load_mulc, load_mulc] at this; exact this
  · exact ((h i).s.add (D2.const (P.es i) t p)).congr (by ring) (by ring)
  · exact (D2.const _ t p).congr (by ring) (by ring)

lemma coD_kV {t p : ℝ} (h : ∀ i, Smooth (P.std i) t p) : CoD P.kV t p (P.kDvdt t p) (P.kDvdp t p) :=
  coD_load P.T (t := t) (p := p) (G := fun i t p => P.V t p i) (W := fun i l _ _ => P.wv i l)
    (fun i => ((h i).v.add (D2.const (P.ev i) t p)).congr (by ring) (by ring)) (fun i l => D2.const _ t p)

lemma coD_kCp {t p : ℝ} (h : ∀ i, Smooth (P.std i) t p) :
    CoD P.kCp t p (P.kDcpdt t p) ((P.kD2vdt2 t p).mulc (-t)) := by
  have := coD_load P.T (t := t) (p := p) (G := fun i t p => (P.std i t p).cp) (W := fun _ _ _ _ => 0)
    (gT := fun i => (P.std i t p).dcpdt) (gP := fun i => -t * (P.std i t p).d2vdt2)
    (wT := fun _ _ => 0) (wP := fun _ _ => -t * 0) (fun i => (h i).cp)
    (fun i l => (D2.const 0 t p).congr rfl (by ring))
  rw [load_mulc] at this; exact this

lemma coD_kDvdt {t p : ℝ} (h : ∀ i, Smooth (P.std i) t p) : CoD P.kDvdt t p (P.kD2vdt2 t p) (P.kD2vdtdp t p) :=
  coD_load P.T (t := t) (p := p) (G := fun i t p => (P.std i t p).dvdt) (W := fun _ _ _ _ => 0)
    (fun i => (h i).dvdt) (fun _ _ => D2.const 0 t p)

lemma coD_kDvdp {t p : ℝ} (h : ∀ i, Smooth (P.std i) t p) : CoD P.kDvdp t p (P.kD2vdtdp t p) (P.kD2vdp2 t p) :=
  coD_load P.T (t := t) (p := p) (G := fun i t p => (P.std i t p).dvdp) (W := fun _ _ _ _ => 0)
    (fun i => (h i).dvdp) (fun _ _ => D2.const 0 t p)

/-! ### The arrays are the derivatives -/

/-- Conditions under which the formulas are differentiable. -/
def Dom (P : Par) (a : Fin 20 → Prop) (aw : Prop) (y : Var 18 1 → ℝ) : Prop :=
  0 < tOf y ∧ (∀ i, Smooth (P.std i) (tOf y) (pOf y)) ∧ Safe a aw (spOf y)

lemma c1_zero (a : Fin 20 → Prop) (aw : Prop) (x : Fin 20 → ℝ) : c1 a aw x (fun _ => 0) = 0 := by simp [c1]
lemma c2_zero (a : Fin 20 → Prop) (aw : Prop) (x d : Fin 20 → ℝ) : c2 a aw x d (fun _ => 0) = 0 := by simp [c2]
lemma c3_zero (a : Fin 20 → Prop) (aw : Prop) (x d e : Fin 20 → ℝ) : c3 a aw x d e (fun _ => 0) = 0 := by
  simp [c3]

lemma c2_swap (a : Fin 20 → Prop) (aw : Prop) (x d e : Fin 20 → ℝ) : c2 a aw x d e = c2 a aw x e d := by
  simp only [c2, mul_comm (d _) (e _)]
lemma c3_swap (a : Fin 20 → Prop) (aw : Prop) (x d e f : Fin 20 → ℝ) : c3 a aw x d e f = c3 a aw x e d f := by
  simp only [c3, mul_comm (d _) (e _)]
lemma c3_swap' (a : Fin 20 → Prop) (aw : Prop) (x d e f : Fin 20 → ℝ) : c3 a aw x d e f = c3 a aw x d f e := by
  simp only [c3, mul_right_comm (d _) (e _) (f _)]

lemma evRR_symm {k : Co} (i j : Fin 18) : evRR k i j = evRR k j i := by
  unfold evRR
  rcases lt_trichotomy i j with e | e | e
  · rw [if_neg e.ne, if_pos e, if_neg e.ne', if_neg (not_lt.2 e.le)]
  · rw [e]
  · rw [if_neg e.ne', if_neg (not_lt.2 e.le), if_neg e.ne, if_pos e]

lemma tabs_symm (P : Par) (a : Fin 20 → Prop) (aw : Prop) (y : Var 18 1 → ℝ) : (tabs P a aw y).Symm := by
  constructor
  · intro i j; simp only [tabs]; rw [evRR_symm, c2_swap]
  · intro i j; rfl
  · intro i j k; simp only [tabs]; exact ⟨by rw [c3_swap], by rw [c3_swap']⟩
  · intro i j k; simp only [tabs]; rw [c3_swap]
  · intro i j; simp only [tabs]; rw [evRR_symm, c2_swap]
  · intro i j; simp only [tabs]; rw [evRR_symm]
  all_goals intros; first | rfl | exact ⟨rfl, rfl⟩

lemma dsp_r (j : Fin 18) : (fun i => dsp i (.inl (.inl j))) = dxdr j := rfl
lemma dsp_s (k : Fin 1) : (fun i => dsp i (.inr k)) = dxds := rfl
lemma dsp_t : (fun i => dsp i (.inl iT)) = fun _ => 0 := by funext i; simp [dsp, mk, iT]
lemma dsp_p : (fun i => dsp i (.inl iP)) = fun _ => 0 := by funext i; simp [dsp, mk, iP]

/-- Product of temperature and a function of the composition. -/
lemma gr_tc {f : (Var 18 1 → ℝ) → ℝ} {y d : Var 18 1 → ℝ} (h : Gr f y d) :
    Gr (fun y => R * tOf y * f y) y
      (fun v => R * tOf y * d v + (if v = .inl iT then R * f y else 0)) := by
  have h1 := ((gr_t y).mul h).mulc R
  refine (h1.congr_d (ext_var ?_ ?_ ?_ ?_)).congr (Eventually.of_forall fun y' => by ring)
  · intro i; simp [mk, iT]; ring
  · simp [mk, iT]; ring
  · simp [mk, iT, iP]; ring
  · simp [mk, iT]; ring

lemma mk_r (r : Fin 18 → ℝ) (t p s : ℝ) (i : Fin 18) : mk r t p s (.inl (.inl i)) = r i := rfl
lemma mk_t (r : Fin 18 → ℝ) (t p s : ℝ) : mk r t p s (.inl iT) = t := rfl
lemma mk_p (r : Fin 18 → ℝ) (t p s : ℝ) : mk r t p s (.inl iP) = p := rfl
lemma mk_s (r : Fin 18 → ℝ) (t p s : ℝ) (k : Fin 1) : mk r t p s (.inr k) = s := rfl

lemma iP_ne : (Sum.inl iP : Var 18 1) ≠ .inl iT := by simp [iT, iP]
lemma r_ne (i : Fin 18) : (Sum.inl (.inl i) : Var 18 1) ≠ .inl iT := by simp [iT]
lemma s_ne (k : Fin 1) : (Sum.inr k : Var 18 1) ≠ .inl iT := by simp

theorem tabs_ok (P : Par) (a : Fin 20 → Prop) (aw : Prop) : (jets (tabs P a aw)).Ok (Dom P a aw) := by
  have fG := fun t p => load_sym P.T (P.G t p) (P.W t p)
  have fS := fun t p => load_sym P.T (P.S t p) P.ws
  have fV := fun t p => load_sym P.T (P.V t p) P.wv
  have fC := fun (k : Co) (c : ℝ) (h : k.Sym) => (show (k.mulc c).Sym from fun i j => by
    simp only [Co.mulc]; rw [h])
  have lCp := fun t p => load_flat P.T fun i => (P.std i t p).cp
  have lt := fun t p => load_flat P.T fun i => (P.std i t p).dvdt
  have lp := fun t p => load_flat P.T fun i => (P.std i t p).dvdp
  apply jets_ok
  · exact fun y _ => tabs_symm P a aw y
  · rintro y ⟨h0, hs, ha⟩
    refine ((gr_ev (coD_kG hs) fG (fC _ _ (fS _ _)) (fV _ _)).add (gr_tc (gr_c0 ha))).congr_d
      (ext_var (fun i => ?_) ?_ ?_ ?_)
    · simp only [mk_r, dsp_r, r_ne, if_false, add_zero]; rfl
    · simp only [mk_t, dsp_t, c1_zero, if_true, mul_zero, zero_add, ev_mulc]
      simp [Tables.at1, tabs, iT]; ring
    · simp only [mk_p, dsp_p, c1_zero, iP_ne, if_false, mul_zero, add_zero]; rfl
    · simp only [mk_s, dsp_s, s_ne, if_false, add_zero]; rfl
  · rintro y ⟨h0, hs, ha⟩ i
    refine ((gr_evR (coD_kG hs) fG i).add (gr_tc (gr_c1 ha (dxdr i)))).congr_d (ext_var (fun i => ?_) ?_ ?_ ?_)
    · simp only [mk_r, dsp_r, r_ne, if_false, add_zero]; rfl
    · simp only [mk_t, dsp_t, c2_zero, if_true, mul_zero, zero_add, evR_mulc]
      simp [Tables.at2, tabs, iT]
    · simp only [mk_p, dsp_p, c2_zero, iP_ne, if_false, mul_zero, add_zero]; rfl
    · simp only [mk_s, dsp_s, s_ne, if_false, add_zero]; rfl
  · rintro y ⟨h0, hs, ha⟩
    refine (((gr_ev (coD_kS hs) fS (fC _ _ (load_sym _ _ _)) (fC _ _ (load_sym _ _ _))).add
      ((gr_c0 ha).mulc (-R))).mulc (-1)).congr_d (ext_var (fun i => ?_) ?_ ?_ ?_) |>.congr
        (Eventually.of_forall fun y' => ?_)
    · simp only [mk_r, dsp_r]; simp [Tables.at2, tabs, iT]; ring
    · simp only [mk_t, dsp_t, c1_zero, ev_mulc, (lCp _ _).ev, Par.kCp]; simp [Tables.at2, tabs, iT, Par.kCp]
      field_simp
    · simp only [mk_p, dsp_p, c1_zero, ev_mulc, (lt _ _).ev, Par.kDvdt]; simp [Tables.at2, tabs, iT, iP, Par.kDvdt]
    · simp only [mk_s, dsp_s]; simp [Tables.at2, tabs, iT]; ring
    · simp only [tabs]; ring
  · rintro y ⟨h0, hs, ha⟩
    refine (gr_ev (coD_kV hs) fV (load_sym _ _ _) (load_sym _ _ _)).congr_d (ext_var (fun i => ?_) ?_ ?_ ?_)
    · rfl
    · simp only [mk_t, Par.kDvdt, (lt _ _).ev]; rfl
    · simp only [mk_p, Par.kDvdp, (lp _ _).ev]; rfl
    · rfl
  · rintro y ⟨h0, hs, ha⟩ k
    refine ((gr_evS (coD_kG hs)).add (gr_tc (gr_c1 ha dxds))).congr_d (ext_var (fun i => ?_) ?_ ?_ ?_)
    · simp only [mk_r, dsp_r, r_ne, if_false, add_zero]; rw [c2_swap]; rfl
    · simp only [mk_t, dsp_t, c2_zero, if_true, mul_zero, zero_add, evS_mulc]
      simp [Tables.at2, tabs, iT]
    · simp only [mk_p, dsp_p, c2_zero, iP_ne, if_false, mul_zero, add_zero]; rfl
    · simp only [mk_s, dsp_s, s_ne, if_false, add_zero]; rfl
  · rintro y ⟨h0, hs, ha⟩ i j
    refine ((gr_evRR (coD_kG hs) i j).add (gr_tc (gr_c2 ha (dxdr i) (dxdr j)))).congr_d
      (ext_var (fun i => ?_) ?_ ?_ ?_)
    · simp only [mk_r, dsp_r, r_ne, if_false, add_zero, Pi.zero_apply, zero_add]; rfl
    · simp only [mk_t, dsp_t, c3_zero, if_true, mul_zero, zero_add, evRR_mulc]
      simp [Tables.at3, tabs, iT]
    · simp only [mk_p, dsp_p, c3_zero, iP_ne, if_false, mul_zero, add_zero]; rfl
    · simp only [mk_s, dsp_s, s_ne, if_false, add_zero, zero_add]; rfl
  · rintro y ⟨h0, hs, ha⟩ i k
    refine (((coD_kG hs).rs i).gr.add (gr_tc (gr_c2 ha (dxdr i) dxds))).congr_d
      (ext_var (fun j => ?_) ?_ ?_ ?_)
    · simp only [mk_r, dsp_r, r_ne, if_false, add_zero, Pi.zero_apply, zero_add]; rw [c3_swap']; rfl
    · simp only [mk_t, dsp_t, c3_zero, if_true, mul_zero, zero_add]
      simp [Tables.at3, tabs, iT, Co.mulc]
    · simp only [mk_p, dsp_p, c3_zero, iP_ne, if_false, mul_zero, add_zero]; rfl
    · simp only [mk_s, dsp_s, s_ne, if_false, add_zero, zero_add]; rfl
  · rintro y ⟨h0, hs, ha⟩ i
    refine (((gr_evR (coD_kS hs) fS i).mulc (-1)).add ((gr_c1 ha (dxdr i)).mulc R)).congr_d
      (ext_var (fun j => ?_) ?_ ?_ ?_) |>.congr (Eventually.of_forall fun y' => ?_)
    · simp only [mk_r, dsp_r]; simp [Tables.at3, tabs, iT]; ring
    · simp only [mk_t, dsp_t, c2_zero, evR_mulc, (lCp _ _).evR, Par.kCp]; simp [Tables.at3, tabs, iT, Par.kCp]; ring
    · simp only [mk_p, dsp_p, c2_zero, evR_mulc, (lt _ _).evR, Par.kDvdt]; simp [Tables.at3, tabs, iT, iP, Par.kDvdt]
    · simp only [mk_s, dsp_s]; simp [Tables.at3, tabs, iT]; ring
    · simp only [tabs]; ring
  · rintro y ⟨h0, hs, ha⟩ i
    refine (gr_evR (coD_kV hs) fV i).congr_d (ext_var (fun j => ?_) ?_ ?_ ?_)
    · rfl
    · simp only [mk_t, Par.kDvdt, (lt _ _).evR]; rfl
    · simp only [mk_p, Par.kDvdp, (lp _ _).evR]; rfl
    · rfl
  · rintro y ⟨h0, hs, ha⟩ k l
    refine (((coD_kG hs).ss.cmul 2).gr.add (gr_tc (gr_c2 ha dxds dxds))).congr_d
      (ext_var (fun j => ?_) ?_ ?_ ?_)
    · simp only [mk_r, dsp_r, r_ne, if_false, add_zero, Pi.zero_apply, zero_add]; rw [c3_swap', c3_swap]; rfl
    · simp only [mk_t, dsp_t, c3_zero, if_true, mul_zero, zero_add]
      simp [Tables.at3, tabs, iT, Co.mulc]
    · simp only [mk_p, dsp_p, c3_zero, iP_ne, if_false, mul_zero, add_zero]; rfl
    · simp only [mk_s, dsp_s, s_ne, if_false, add_zero, zero_add]; rfl
  · rintro y ⟨h0, hs, ha⟩ k
    refine (((gr_evS (coD_kS hs)).mulc (-1)).add ((gr_c1 ha dxds).mulc R)).congr_d
      (ext_var (fun j => ?_) ?_ ?_ ?_) |>.congr (Eventually.of_forall fun y' => ?_)
    · simp only [mk_r, dsp_r]; rw [c2_swap]; simp [Tables.at3, tabs, iT]; ring
    · simp only [mk_t, dsp_t, c2_zero, evS_mulc, (lCp _ _).evS, Par.kCp]; simp [Tables.at3, tabs, iT, Par.kCp]; ring
    · simp only [mk_p, dsp_p, c2_zero, evS_mulc, (lt _ _).evS, Par.kDvdt]; simp [Tables.at3, tabs, iT, iP, Par.kDvdt]
    · simp only [mk_s, dsp_s]; simp [Tables.at3, tabs, iT]; ring
    · simp only [tabs]; ring
  · rintro y ⟨h0, hs, ha⟩ k
    refine (gr_evS (coD_kV hs)).congr_d (ext_var (fun j => ?_) ?_ ?_ ?_)
    · rfl
    · simp only [mk_t, Par.kDvdt, (lt _ _).evS]; rfl
    · simp only [mk_p, Par.kDvdp, (lp _ _).evS]; rfl
    · rfl
  · rintro y ⟨h0, hs, ha⟩
    have h1 : Gr (fun y : Var 18 1 → ℝ => (-tOf y)⁻¹) y (mk 0 (1 / (tOf y * tOf y)) 0 0) := by
      have : D2 (fun t _ => (-t)⁻¹) (tOf y) (pOf y) (1 / (tOf y * tOf y)) 0 := by
        have h2 : HasFDerivAt (fun u : ℝ × ℝ => -u.1) (-ContinuousLinearMap.fst ℝ ℝ ℝ) (tOf y, pOf y) :=
          hasFDerivAt_fst.neg
        have h3 : HasDerivAt (fun x : ℝ => x⁻¹) (-((-tOf y) ^ 2)⁻¹) (-tOf y) := hasDerivAt_inv (by simpa using h0.ne')
        refine (HasDerivAt.comp_hasFDerivAt (f := fun u : ℝ × ℝ => -u.1) (tOf y, pOf y) h3 h2).congr_fderiv ?_
        ext <;> simp [pow_two]
      exact this.gr
    refine ((gr_evL (coD_kCp hs)).mul h1).congr_d (ext_var (fun j => ?_) ?_ ?_ ?_) |>.congr
      (Eventually.of_forall fun y' => ?_)
    · simp only [mk_r]; simp [Tables.at3, tabs, iT]; ring
    · simp only [mk_t]; simp [Tables.at3, tabs, iT, tp3]; ring
    · simp only [mk_p, evL_mulc]; simp [Tables.at3, tabs, iT, iP, tp3]; field_simp
    · simp only [mk_s]; simp [Tables.at3, tabs, iT]; ring
    · simp only [tabs]; ring
  · rintro y ⟨h0, hs, ha⟩
    exact (gr_evL (coD_kDvdt hs)).congr_d (ext_var (fun j => rfl) rfl rfl rfl)
  · rintro y ⟨h0, hs, ha⟩
    exact (gr_evL (coD_kDvdp hs)).congr_d (ext_var (fun j => rfl) rfl rfl rfl)

end

end Verif.Thermo.LiquidCO2
