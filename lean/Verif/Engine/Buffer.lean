import Verif.Engine.SystemProps
import Verif.Thermo.MuO2
import Verif.Thermo.Buffers

/-!
Model of the oxygen-buffer part of the assembly of the Newton system: /repo/sources/gradient_hessian.c 517-788, 835-916,
1069-1152, 1316-1318 and /repo/sources/equality_constraints.c 223-232, 258-345, when a liquid is present.

Simplifications: as in `Engine/System`; the entries between a liquid and the solids, which the code first sets to those of one
mole of oxygen (744-747) and then multiplies by the oxygen of the solid end member (897-904, 1123-1131), are given in their
final form.  The subsolidus case (`subsolidusmuO2`) is not modelled.
-/

namespace Magma.Engine.System

open Finset Filter Topology Magma.Thermo.Extensive
open Magma.Thermo.Mixing (Mix)
open Verif.Thermo.StdState (Std)

noncomputable section

/-! ### Model -/

/-- Chemical potential of oxygen in a liquid with its derivatives in the moles, temperature and pressure. -/
structure Oxy (na : ℕ) where
  mu : ℝ → ℝ → (Fin na → ℝ) → ℝ
  dm : ℝ → ℝ → (Fin na → ℝ) → Fin na → ℝ
  dt : ℝ → ℝ → (Fin na → ℝ) → ℝ
  dp : ℝ → ℝ → (Fin na → ℝ) → ℝ
  dmm : ℝ → ℝ → (Fin na → ℝ) → Fin na → Fin na → ℝ
  dmt : ℝ → ℝ → (Fin na → ℝ) → Fin na → ℝ
  dmp : ℝ → ℝ → (Fin na → ℝ) → Fin na → ℝ
  dtt : ℝ → ℝ → (Fin na → ℝ) → ℝ
  dpp : ℝ → ℝ → (Fin na → ℝ) → ℝ

/-- gradient_hessian.c 621-636: what `muO2Liq` returns (`X`) with the standard state of oxygen (`oxygen.cur`) added. -/
def Oxy.std {na : ℕ} (X : Oxy na) (o : ℝ → ℝ → Std) : Oxy na :=
  { X with
    mu := fun T P m => X.mu T P m + (o T P).g
    dt := fun T P m => X.dt T P m - (o T P).s
    dtt := fun T P m => X.dtt T P m + -(o T P).cp / T }

/-- Chemical potential of oxygen in the buffer with its derivatives in temperature and pressure. -/
structure Ext where
  e : ℝ → ℝ → ℝ
  et : ℝ → ℝ → ℝ
  ett : ℝ → ℝ → ℝ
  ep : ℝ → ℝ → ℝ
  epp : ℝ → ℝ → ℝ

open Magma.Thermo.Buffers in
/-- gradient_hessian.c 650-671 (`muO2E`, `dmuO2Edt`, ...). -/
def Ext.of (o : ℝ → ℝ → Std) (delta : ℝ) (b : Buffer) : Ext where
  e T P := (o T P).g + Magma.Thermo.MuO2.R * T * Real.log 10 * log10fo2 delta T P b
  et T P := -(o T P).s + Magma.Thermo.MuO2.R * Real.log 10 * log10fo2 delta T P b
    + Magma.Thermo.MuO2.R * T * Real.log 10 * dlog10fo2dt T P b
  ett T P := -(o T P).cp / T + 2 * Magma.Thermo.MuO2.R * Real.log 10 * dlog10fo2dt T P b
    + Magma.Thermo.MuO2.R * T * Real.log 10 * d2log10fo2dt2 T P b
  ep T P := Magma.Thermo.MuO2.R * T * Real.log 10 * dlog10fo2dp T P b
  epp T P := Magma.Thermo.MuO2.R * T * Real.log 10 * d2log10fo2dp2 T P b

/-- gradient_hessian.c 523-536: `mO2T`, the moles of oxygen in the system. -/
def mO2T (L : List Phase) : ℝ := (L.map fun ph => ∑ j, ph.o2 j * ph.m j).sum

/-- A quantity of the phases, each with its first row, summed. -/
def sumAt (f : ℕ → Phase → ℝ) : ℕ → List Phase → ℝ
  | _, [] => 0
  | k, ph :: L => f k ph + sumAt f (k + ph.slots.length) L

/-- The oxygen in one mole of the end member of each row. -/
def o2Rows : List Phase → List ℝ
  | [] => []
  | ph :: L => ph.slots.map ph.o2 ++ o2Rows L

section
variable (mode : Mode) (T P : ℝ) (N : ℕ) (mT : ℝ) (E : Ext) (X : (ph : Phase) → Oxy ph.na)

/-- gradient_hessian.c 712, 718, 724, 729 and 755, 767, 779: what a liquid whose rows begin at `k` adds to `bMatrix`. -/
def liqB (i k : ℕ) (ph : Phase) : ℝ :=
  if h : k ≤ i ∧ i - k < ph.slots.length then
    match mode with
    | .isenthalpic => ph.o2 ph.slots[i - k] * E.e T P / T
    | .isentropic => ph.o2 ph.slots[i - k] * E.e T P
    | .isochoric | .gibbs =>
      mT * (X ph).dm T P ph.m ph.slots[i - k] + ph.o2 ph.slots[i - k] * (X ph).mu T P ph.m
  else if i = N then
    match mode with
    | .isenthalpic => -mT * E.e T P / T ^ 2 + mT * E.et T P / T
    | .isentropic => mT * E.et T P
    | .isochoric => mT * (X ph).dp T P ph.m
    | .gibbs => 0
  else 0

/-- gradient_hessian.c 713-714, 719-720, 725-726: the entry of `eMatrix` for a component of the liquid and temperature or
pressure. -/
def liqEt (ph : Phase) (j : Fin ph.na) : ℝ :=
  match mode with
  | .isenthalpic => ph.o2 j * E.e T P / T ^ 2 - ph.o2 j * E.et T P / T
  | .isentropic => -ph.o2 j * E.et T P
  | .isochoric => -mT * (X ph).dmp T P ph.m j - ph.o2 j * (X ph).dp T P ph.m
  | .gibbs => 0

/-- gradient_hessian.c 708-787: what a liquid whose rows begin at `k` adds to `eMatrix`; the rows of the solids begin at `s`,
and `o` is the oxygen of the end member of each row. -/
def liqE (s : ℕ) (o : ℕ → ℝ) (i j k : ℕ) (ph : Phase) : ℝ :=
  if h : k ≤ i ∧ i - k < ph.slots.length then
    if h' : k ≤ j ∧ j - k < ph.slots.length then
      -ph.o2 ph.slots[i - k] * (X ph).dm T P ph.m ph.slots[j - k]
        - ph.o2 ph.slots[j - k] * (X ph).dm T P ph.m ph.slots[i - k]
        - mT * (X ph).dmm T P ph.m ph.slots[i - k] ph.slots[j - k]
    else if s ≤ j ∧ j < N then -(X ph).dm T P ph.m ph.slots[i - k] * o j
    else if j = N then liqEt mode T P mT E X ph ph.slots[i - k] else 0
  else if h' : k ≤ j ∧ j - k < ph.slots.length then
    if s ≤ i ∧ i < N then -(X ph).dm T P ph.m ph.slots[j - k] * o i
    else if i = N then liqEt mode T P mT E X ph ph.slots[j - k] else 0
  else if i = N ∧ j = N then
    match mode with
    | .isenthalpic => -2 * mT * E.e T P / T ^ 3 + 2 * mT * E.et T P / T ^ 2 - mT * E.ett T P / T
    | .isentropic => -mT * E.ett T P
    | .isochoric => -mT * (X ph).dpp T P ph.m
    | .gibbs => 0
  else 0

/-- gradient_hessian.c 715-743, 757, 769, 781: `eMatrixfO2[nl]`. -/
def liqC (i j k : ℕ) (ph : Phase) : ℝ :=
  if h : k ≤ i ∧ i - k < ph.slots.length then
    if h' : k ≤ j ∧ j - k < ph.slots.length then -(X ph).dmm T P ph.m ph.slots[i - k] ph.slots[j - k]
    else if j = N then
      match mode with
      | .isenthalpic | .isentropic => -(X ph).dmt T P ph.m ph.slots[i - k]
      | .isochoric => -(X ph).dmp T P ph.m ph.slots[i - k]
      | .gibbs => 0
    else 0
  else if i = N then
    if h' : k ≤ j ∧ j - k < ph.slots.length then
      match mode with
      | .isenthalpic | .isentropic => -(X ph).dmt T P ph.m ph.slots[j - k]
      | .isochoric => -(X ph).dmp T P ph.m ph.slots[j - k]
      | .gibbs => 0
    else if j = N then
      match mode with
      | .isenthalpic | .isentropic => -(X ph).dtt T P ph.m + E.ett T P
      | .isochoric => -(X ph).dpp T P ph.m + E.epp T P
      | .gibbs => 0
    else 0
  else 0

/-- gradient_hessian.c 837, 856, 871, 882 and 1072, 1088, 1101, 1116: what a solid adds to `bMatrix`; `mu` is that of the
first liquid. -/
def solB (mu : ℝ) (i k : ℕ) (ph : Phase) : ℝ :=
  if h : k ≤ i ∧ i - k < ph.slots.length then
    match mode with
    | .isenthalpic => ph.o2 ph.slots[i - k] * E.e T P / T
    | .isentropic => ph.o2 ph.slots[i - k] * E.e T P
    | .isochoric | .gibbs => ph.o2 ph.slots[i - k] * mu
  else 0

/-- gradient_hessian.c 847-852, 863-864, 876-879 and 1081-1086, 1097-1098, 1110-1113: the entry of `eMatrix` for an end member
of a solid with oxygen `o` and temperature or pressure; `dp` is the pressure derivative of the potential in the first liquid. -/
def solT (dp o : ℝ) : ℝ :=
  match mode with
  | .isenthalpic => o * (E.e T P / T ^ 2 - E.et T P / T)
  | .isentropic => -o * E.et T P
  | .isochoric => -o * dp
  | .gibbs => 0

/-- gradient_hessian.c 847-852, 863-864, 876-879 and 1081-1086, 1097-1098, 1110-1113: what a solid adds to `eMatrix`. -/
def solE (dp : ℝ) (i j k : ℕ) (ph : Phase) : ℝ :=
  if h : k ≤ i ∧ i - k < ph.slots.length then if j = N then solT mode T P E dp (ph.o2 ph.slots[i - k]) else 0
  else if h' : k ≤ j ∧ j - k < ph.slots.length then if i = N then solT mode T P E dp (ph.o2 ph.slots[j - k]) else 0
  else 0

end

/-- Matrices under a buffer: those of `Mats`, and `eMatrixfO2` of each liquid. -/
structure OMats extends Mats where
  o : ℕ → ℕ → ℕ → ℝ

/-- gradient_hessian.c 237-1219 with a buffer `E` and at least one liquid: `l` the first, `liqs` the others, `sols` the
solids. -/
def bufferedAssemble (mode : Mode) (T P : ℝ) (N : ℕ) (E : Ext) (X : (ph : Phase) → Oxy ph.na) (l : Phase)
    (liqs sols : List Phase) : OMats :=
  let L := (l :: liqs) ++ sols
  let A := assemble mode (hasNlCon mode true) T P N 0 L Mats.zero
  let mT := mO2T L
  let s := (rows (l :: liqs)).length
  let o := fun i => (o2Rows L).getD i 0
  { b := fun i => A.b i + sumAt (liqB mode T P N mT E X i) 0 (l :: liqs)
      + sumAt (solB mode T P E ((X l).mu T P l.m) i) s sols
    e := fun i j => A.e i j + sumAt (liqE mode T P N mT E X s o i j) 0 (l :: liqs)
      + sumAt (solE mode T P N E ((X l).dp T P l.m) i j) s sols
    c := A.c
    o := fun n i j => match (l :: liqs)[n]? with
      | some ph => liqC mode T P N E X i j (rows ((l :: liqs).take n)).length ph
      | none => 0 }

/-- gradient_hessian.c 1316-1318, 1339-1391: the Hessian with those of the constraints multiplied in. -/
def OMats.corrected (S : OMats) (mode : Mode) (nliq : ℕ) (lambdaO : ℕ → ℝ) (lambda : ℝ) (i j : ℕ) : ℝ :=
  System.corrected mode lambda { S.toMats with e := fun i j => S.e i j + ∑ n ∈ range nliq, lambdaO n * S.o n i j } i j

/-- equality_constraints.c 258-310: the rows of the constraint matrix for the oxides in `comps` under a buffer: ferric iron
counts twice, and of the rows of the two iron oxides the second is added to the first; `none` for the row that
is written to (`kMin`) when it does not exist. The accumulator holds the rows so far and `kMin`. -/
def ironRows (fe3 fe2 : ℕ) (L : List Phase) : List ℕ → List (List ℝ) × Option ℕ → Option (List (List ℝ))
  | [], a => some a.1
  | i :: cs, a =>
    let r := if i = fe3 then (oxRow i L).map (· * 2) else oxRow i L
    if i = min fe3 fe2 then ironRows fe3 fe2 L cs (a.1 ++ [r], some a.1.length)
    else if i = max fe3 fe2 then
      match a.2 with
      | none => none
      | some k => ironRows fe3 fe2 L cs (a.1.modify k (List.zipWith (· + ·) · r), some k)
    else ironRows fe3 fe2 L cs (a.1 ++ [r], a.2)

open Magma.Thermo.Buffers in
/-- equality_constraints.c 313-345: the row of the buffer for the liquid `ph` whose columns begin at `k`; `X` is what `muO2Liq`
returns, `fo2` is `silminState->fo2`. -/
def bufferRow (mode : Mode) (T P : ℝ) (N : ℕ) (fo2 : ℝ) (b : Buffer) (X : (ph : Phase) → Oxy ph.na) (k : ℕ) (ph : Phase)
    (j : ℕ) : ℝ :=
  if h : k ≤ j ∧ j - k < ph.slots.length then (X ph).dm T P ph.m ph.slots[j - k]
  else if j = N then
    match mode with
    | .isenthalpic | .isentropic => (X ph).dt T P ph.m - Magma.Thermo.MuO2.R * Real.log 10 * fo2
        - Magma.Thermo.MuO2.R * T * Real.log 10 * dlog10fo2dt T P b
    | .isochoric => (X ph).dp T P ph.m - Magma.Thermo.MuO2.R * T * Real.log 10 * dlog10fo2dp T P b
    | .gibbs => 0
  else 0

/-- equality_constraints.c 220, 226, 228, 230: the rows that are allocated. -/
def rowsAllocated (mode : Mode) (comps : List ℕ) (nliq : ℕ) : ℕ :=
  comps.length + (if 1 < nliq then nliq - 1 else 0) + if mode = .gibbs then 0 else 1

/-- equality_constraints.c 258-345, 475-487: the rows that are written when the rows of the oxides are `R`. -/
def rowsWritten (mode : Mode) (R : List (List ℝ)) (nliq : ℕ) : ℕ := R.length + nliq + if mode = .gibbs then 0 else 1

open Magma.Thermo.Buffers in
/-- equality_constraints.c 258-487: the constraint matrix under a buffer with one liquid, `l`, listed first; `R` are the rows
of the oxides. -/
def bufferedMatrix (mode : Mode) (T P fo2 : ℝ) (b : Buffer) (X : (ph : Phase) → Oxy ph.na) (R : List (List ℝ)) (l : Phase)
    (sols : List Phase) (k j : ℕ) : ℝ :=
  if h : k < R.length then R[k].getD j 0
  else if k = R.length then bufferRow mode T P (rows (l :: sols)).length fo2 b X 0 l j
  else conMatrix mode T P [] (l :: sols) 0 j

end

end Magma.Engine.System
