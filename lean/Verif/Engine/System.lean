import Verif.Thermo.OrderFace
import Verif.Num.Hfti

/-!
Model of the assembly of the gradient and the Hessian of the system, /repo/sources/gradient_hessian.c 237-506 (liquids)
and 790-1219 (solids), of its modification by the Lagrange multiplier, 1286-1391, and of the constraint matrix,
/repo/sources/equality_constraints.c 258-487, without an oxygen buffer (`fo2Path == FO2_NONE`).

Simplifications: real numbers; arrays are functions; the moles of a solution phase (`solidComp[i][n]`) are taken to be the
sum of the moles of its end members; conversion, mixing properties and standard states of a phase are arguments of the
model (they are the subject of C24, C25, C60, C63-C66), as functions of temperature, pressure and composition.
-/

namespace Magma.Engine.System

open Finset Filter Topology Magma.Thermo.Extensive Magma.Thermo.Compo
open Magma.Thermo.Mixing (Mix)
open Verif.Thermo.Ordering (ConsistentOn on mask)
open Verif.Thermo.StdState (Std)

noncomputable section

/-- What is held fixed: gradient_hessian.c 261-263. -/
inductive Mode
  | gibbs | isenthalpic | isentropic | isochoric
  deriving DecidableEq

/-- One molar property of a solution: value, derivatives in the independent variables, and standard-state values. -/
structure Molar (na nr : ℕ) where
  p : (Fin nr → ℝ) → ℝ
  dp : (Fin nr → ℝ) → Fin nr → ℝ
  d2p : (Fin nr → ℝ) → Fin nr → Fin nr → ℝ
  q : Fin na → ℝ

variable {na nr : ℕ}

/-- gradient_hessian.c 357-401, 412-439 (liquid), 955-1010, 1021-1050 (solids): the molar potential (`pMixLiq`, `pMixSol`)
with its derivatives, and the standard-state part. -/
def psiM (M : Mix nr) (F : Fin na → ℝ → ℝ → Std) (mode : Mode) (T P : ℝ) : Molar na nr :=
  match mode with
  | .gibbs => ⟨M.g T P, M.gr T P, M.grr T P, fun i => (F i T P).g⟩
  | .isenthalpic => ⟨fun r => M.s T P r * -1, fun r i => M.sr T P r i * -1, fun r i j => M.srr T P r i j * -1,
      fun i => -(F i T P).s⟩
  | .isentropic => ⟨fun r => M.g T P r + T * M.s T P r, fun r i => M.gr T P r i + T * M.sr T P r i,
      fun r i j => M.grr T P r i j + T * M.srr T P r i j, fun i => (F i T P).h⟩
  | .isochoric => ⟨fun r => M.g T P r - P * M.v T P r, fun r i => M.gr T P r i - P * M.vr T P r i,
      fun r i j => M.grr T P r i j - P * M.vrr T P r i j, fun i => (F i T P).g - P * (F i T P).v⟩

/-- gradient_hessian.c 357-401, 412-439, 955-1010, 1021-1050: the molar property that is held fixed (`pMixTmp`). -/
def conM (M : Mix nr) (F : Fin na → ℝ → ℝ → Std) (mode : Mode) (T P : ℝ) : Molar na nr :=
  match mode with
  | .gibbs => ⟨fun _ => 0, fun _ _ => 0, fun _ _ _ => 0, fun _ => 0⟩
  | .isenthalpic => ⟨fun r => M.g T P r + T * M.s T P r, fun r i => M.gr T P r i + T * M.sr T P r i,
      fun r i j => M.grr T P r i j + T * M.srr T P r i j, fun i => (F i T P).h⟩
  | .isentropic => ⟨M.s T P, M.sr T P, M.srr T P, fun i => (F i T P).s⟩
  | .isochoric => ⟨M.v T P, M.vr T P, M.vrr T P, fun i => (F i T P).v⟩

/-- gradient_hessian.c 374, 389, 398-399, 972, 987, 998-999 and the standard-state parts: heat capacity or
compressibility (`pMixCon`), without second derivatives. -/
def capM (M : Mix nr) (F : Fin na → ℝ → ℝ → Std) (mode : Mode) (T P : ℝ) : Molar na nr :=
  match mode with
  | .gibbs => ⟨fun _ => 0, fun _ _ => 0, fun _ _ _ => 0, fun _ => 0⟩
  | .isenthalpic | .isentropic => ⟨M.cp T P, M.cpr T P, fun _ _ _ => 0, fun i => (F i T P).cp⟩
  | .isochoric => ⟨M.vp T P, M.vrp T P, fun _ _ _ => 0, fun i => (F i T P).dvdp⟩

/-- gradient_hessian.c 374, 389, 398-399, 972, 987, 998-999: the derivative of `capM` in temperature or pressure
(`d2pMixCon`) and its standard-state part. -/
def capT (M : Mix nr) (F : Fin na → ℝ → ℝ → Std) (mode : Mode) (T P : ℝ) : ((Fin nr → ℝ) → ℝ) × (Fin na → ℝ) :=
  match mode with
  | .gibbs => (fun _ => 0, fun _ => 0)
  | .isenthalpic | .isentropic => (M.cpt T P, fun i => (F i T P).dcpdt)
  | .isochoric => (M.vpp T P, fun i => (F i T P).d2vdp2)

/-- gradient_hessian.c 405, 416-437 (`dpLiq`, `dpTmp`, `dpCon`), 1014-1049: extensive gradient. -/
def d1 (X : Molar na nr) (C : Conversion na nr) (m : Fin na → ℝ) (j : Fin na) : ℝ :=
  gradient (X.p (C.toR m)) (X.dp (C.toR m)) (∑ i, m i) (C.dm m) j + X.q j

/-- gradient_hessian.c 442-443, 1053-1055: extensive Hessian. -/
def d2 (X : Molar na nr) (C : Conversion na nr) (m : Fin na → ℝ) (j l : Fin na) : ℝ :=
  hessian (X.dp (C.toR m)) (X.d2p (C.toR m)) (∑ i, m i) (C.dm m) (C.d2m m) j l

/-- gradient_hessian.c 412-434 (`pCon`, `d2pCon`), 1021-1046: extensive value. -/
def val (p : (Fin nr → ℝ) → ℝ) (q : Fin na → ℝ) (C : Conversion na nr) (m : Fin na → ℝ) : ℝ :=
  (∑ i, m i) * p (C.toR m) + ∑ i, m i * q i

/-- A phase of the assemblage: whether it is of fixed composition, whether it is a liquid, the oxides its end members
contain (`liqToOx`, `solToOx`) and the oxygen (`oxygen.liqToOx`, `oxygen.solToOx`), tables, present amounts of the end members. -/
structure Phase where
  na : ℕ
  nr : ℕ
  pure : Bool
  liq : Bool
  ox : Fin na → ℕ → ℝ
  o2 : Fin na → ℝ
  mix : Mix nr
  conv : Conversion na nr
  std : Fin na → ℝ → ℝ → Std
  m : Fin na → ℝ

/-- gradient_hessian.c 293: whether there are non-linear constraints, given whether an oxygen buffer is set. -/
def hasNlCon (mode : Mode) (fo2 : Bool) : Bool := fo2 || decide (mode ≠ .gibbs)

/-- What the assembly needs of a phase: gradient and Hessian of the potential, Hessian of the constraint, heat capacity or
compressibility with its derivatives in the moles and in temperature or pressure. -/
structure Vals (na : ℕ) where
  g : Fin na → ℝ
  h : Fin na → Fin na → ℝ
  c : Fin na → Fin na → ℝ
  p : ℝ
  dp : Fin na → ℝ
  d2p : ℝ

/-- gradient_hessian.c 351-443 (liquid), 948-1055 (solution), 797-824 (phase of fixed composition, `na == 1`), at
amounts `m`. -/
def Phase.vals (ph : Phase) (mode : Mode) (T P : ℝ) (m : Fin ph.na → ℝ) : Vals ph.na :=
  if ph.pure then
    { g := (psiM ph.mix ph.std mode T P).q, h := fun _ _ => 0, c := fun _ _ => 0,
      p := ∑ i, m i * (capM ph.mix ph.std mode T P).q i, dp := (capM ph.mix ph.std mode T P).q,
      d2p := ∑ i, m i * (capT ph.mix ph.std mode T P).2 i }
  else
    { g := d1 (psiM ph.mix ph.std mode T P) ph.conv m, h := d2 (psiM ph.mix ph.std mode T P) ph.conv m,
      c := d2 (conM ph.mix ph.std mode T P) ph.conv m,
      p := val (capM ph.mix ph.std mode T P).p (capM ph.mix ph.std mode T P).q ph.conv m,
      dp := d1 (capM ph.mix ph.std mode T P) ph.conv m,
      d2p := val (capT ph.mix ph.std mode T P).1 (capT ph.mix ph.std mode T P).2 ph.conv m }

/-- The end members that get a row: those present in a solution (gradient_hessian.c 453, 1067), the only one of a phase of
fixed composition. -/
def Phase.slots (ph : Phase) : List (Fin ph.na) :=
  (List.finRange ph.na).filter fun j => ph.pure || decide (ph.m j ≠ 0)

/-- gradient_hessian.c 490, 495, 500, 800, 811, 822, 1191, 1196, 1201: minus the entry added to `bMatrix` for temperature or
pressure. -/
def psiT (mode : Mode) (T P : ℝ) (p : ℝ) : ℝ :=
  match mode with
  | .gibbs => 0
  | .isenthalpic => -(p / T)
  | .isentropic => p
  | .isochoric => -(P * p)

/-- gradient_hessian.c 466-480, 801-825, 1164-1179: the entry added to `eMatrix` for temperature (or pressure) and one
component. -/
def psiTj (mode : Mode) (T P : ℝ) (dp : ℝ) : ℝ :=
  match mode with
  | .gibbs => 0
  | .isenthalpic => -dp / T
  | .isentropic => dp
  | .isochoric => -P * dp

/-- gradient_hessian.c 491, 496, 501, 805, 816, 827, 1192, 1197, 1202: the entry added to `eMatrix` for temperature or
pressure. -/
def psiTT (mode : Mode) (T P : ℝ) (p d2p : ℝ) : ℝ :=
  match mode with
  | .gibbs => 0
  | .isenthalpic => p / T ^ 2 - d2p / T
  | .isentropic => d2p
  | .isochoric => -p - P * d2p

/-- gradient_hessian.c 468-482, 803-826, 1167-1180: the entry added to `eMatrixT` (`eMatrixP`) for temperature (or pressure)
and one component. -/
def conTj (mode : Mode) (T : ℝ) (dp : ℝ) : ℝ :=
  match mode with
  | .gibbs => 0
  | .isenthalpic => -dp
  | .isentropic => -dp / T
  | .isochoric => -dp

/-- gradient_hessian.c 492, 497, 502, 806, 817, 828, 1193, 1198, 1203: the entry added to `eMatrixT` (`eMatrixP`) for
temperature or pressure. -/
def conTT (mode : Mode) (T : ℝ) (p d2p : ℝ) : ℝ :=
  match mode with
  | .gibbs => 0
  | .isenthalpic => -d2p
  | .isentropic => p / T ^ 2 - d2p / T
  | .isochoric => -d2p

/-- The matrices under construction: `bMatrix`, `eMatrix`, and `eMatrixT` or `eMatrixP`. -/
structure Mats where
  b : ℕ → ℝ
  e : ℕ → ℕ → ℝ
  c : ℕ → ℕ → ℝ

/-- gradient_hessian.c 288-291, 300, 305. -/
def Mats.zero : Mats := ⟨fun _ => 0, fun _ _ => 0, fun _ _ => 0⟩

/-- gradient_hessian.c 452-503, 797-828, 1066-1204: the contributions of one phase whose first row is `k`; `N` is the index
of temperature or pressure (the last), `nl` whether there are non-linear constraints (`hasNlCon`). -/
def put (mode : Mode) (nl : Bool) (T P : ℝ) (N k : ℕ) (ph : Phase) (S : Mats) : Mats :=
  let v := ph.vals mode T P ph.m
  let sl := ph.slots
  { b := fun i => S.b i +
      (if h : k ≤ i ∧ i - k < sl.length then
        -v.g sl[i - k] + (if nl then 0 else (sl.map fun l => ph.m l * v.h sl[i - k] l).sum)
      else if i = N then -psiT mode T P v.p else 0)
    e := fun i j => S.e i j +
      (if h : k ≤ i ∧ i - k < sl.length then
        if h' : k ≤ j ∧ j - k < sl.length then v.h sl[i - k] sl[j - k]
        else if j = N then psiTj mode T P (v.dp sl[i - k]) else 0
      else if i = N then
        if h' : k ≤ j ∧ j - k < sl.length then psiTj mode T P (v.dp sl[j - k])
        else if j = N then psiTT mode T P v.p v.d2p else 0
      else 0)
    c := fun i j => S.c i j +
      (if h : k ≤ i ∧ i - k < sl.length then
        if h' : k ≤ j ∧ j - k < sl.length then -v.c sl[i - k] sl[j - k]
        else if j = N then conTj mode T (v.dp sl[i - k]) else 0
      else if i = N then
        if h' : k ≤ j ∧ j - k < sl.length then conTj mode T (v.dp sl[j - k])
        else if j = N then conTT mode T v.p v.d2p else 0
      else 0) }

/-- gradient_hessian.c 346, 790, 918, 1184: the phases in turn, each with the rows after those of the phases before. -/
def assemble (mode : Mode) (nl : Bool) (T P : ℝ) (N : ℕ) : ℕ → List Phase → Mats → Mats
  | _, [], S => S
  | k, ph :: L, S => assemble mode nl T P N (k + ph.slots.length) L (put mode nl T P N k ph S)

/-- gradient_hessian.c 1316-1391: the Hessian with the constraint's multiplied in. -/
def corrected (mode : Mode) (lambda : ℝ) (S : Mats) (i j : ℕ) : ℝ :=
  if mode = .gibbs then S.e i j else S.e i j + lambda * S.c i j

/-! ### The equality constraints -/

/-- equality_constraints.c 264-296: the row of the constraint matrix for oxide `i`, the columns in order, zero after them. -/
def oxRow (i : ℕ) : List Phase → List ℝ
  | [] => []
  | ph :: L => (ph.slots.map fun j => ph.ox j i) ++ oxRow i L

/-- equality_constraints.c 357-395, 412-421, 441-470: the molar property of the constraint row; the enthalpy is that
of `hmix`. -/
def conG (M : Mix nr) (F : Fin na → ℝ → ℝ → Std) (mode : Mode) (T P : ℝ) : Molar na nr :=
  match mode with
  | .isenthalpic => { conM M F mode T P with p := M.h T P }
  | m => conM M F m T P

/-- equality_constraints.c 357-397 (liquid), 410-422 (phase of fixed composition), 438-473 (solution): the entries of the
constraint row for one phase: `dpLiq`, `dpSol`. -/
def Phase.conRow (ph : Phase) (mode : Mode) (T P : ℝ) (j : Fin ph.na) : ℝ :=
  if ph.pure then (conG ph.mix ph.std mode T P).q j else d1 (conG ph.mix ph.std mode T P) ph.conv ph.m j

/-- equality_constraints.c 365, 376, 389, 413, 416, 419, 449, 459, 468: `dpLiqdT`, `dpSoldT` (`dP`). -/
def conT (mode : Mode) (T p : ℝ) : ℝ :=
  match mode with
  | .gibbs => 0
  | .isenthalpic => p
  | .isentropic => p / T
  | .isochoric => p

/-- equality_constraints.c 337-339, 397-399, 411-421, 475-477: the entries in the amounts, and the entry in temperature or
pressure: assigned by a liquid, added to by a solid. -/
def conRow (mode : Mode) (T P : ℝ) : List Phase → List ℝ × ℝ → List ℝ × ℝ
  | [], s => s
  | ph :: L, s => conRow mode T P L (s.1 ++ ph.slots.map (ph.conRow mode T P),
      if ph.liq then conT mode T (ph.vals mode T P ph.m).p else s.2 + conT mode T (ph.vals mode T P ph.m).p)

/-- equality_constraints.c 264-313, 333-487: constraint matrix of the oxides `comps` (those with `bulkComp[i] != 0.0`) and,
except at given temperature and pressure, of the given quantity. -/
def conMatrix (mode : Mode) (T P : ℝ) (comps : List ℕ) (L : List Phase) (k l : ℕ) : ℝ :=
  if h : k < comps.length then (oxRow comps[k] L).getD l 0
  else if mode = .gibbs then 0
  else if l < (conRow mode T P L ([], 0)).1.length then (conRow mode T P L ([], 0)).1.getD l 0
  else if l = (conRow mode T P L ([], 0)).1.length then (conRow mode T P L ([], 0)).2 else 0

/-- equality_constraints.c 298, 486. -/
def conVector (mode : Mode) (bulk : ℕ → ℝ) (comps : List ℕ) (k : ℕ) : ℝ :=
  if h : k < comps.length then if mode = .gibbs then bulk comps[k] else 0 else 0

end

end Magma.Engine.System
