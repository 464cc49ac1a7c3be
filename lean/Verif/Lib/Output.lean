import Mathlib.Algebra.BigOperators.Field
import Mathlib.Algebra.BigOperators.Fin
import Mathlib.Algebra.Field.Rat
import Mathlib.Data.Fin.VecNotation
import Mathlib.Tactic.FieldSimp
import Mathlib.Tactic.Ring
import Mathlib.Tactic.FinCases

/-!
What a library call reports: the output block of `meltsprocess_`, /repo/sources/library.c 866-1125. One column per phase, the
first one for the system. `dyn` says whether the library is compiled with TESTDYNAMICLIB (as in /repo/Makefiles) or not.

Simplifications: `double` is a field. The eleven properties (G, H, S, V, Cp, dCpdT, dVdT, dVdP, d2VdT2, d2VdTdP, d2VdP2) of a
solution's mixing model are an arbitrary function of the moles of its components. Sums over components and oxides are written
as sums; the loops over phases are folds, as in the code. Viscosity is left out. Of the phase names only the table index is
kept.
-/

namespace Magma.Lib.Output

open Finset

variable {nc nlc : ℕ} {K : Type} [Field K]

/-- A row of `solids[]`: `cur` (the eleven properties in the order above) and `solToOx`. -/
structure Row (nc : ℕ) (K : Type) where
  cur : Fin 11 → K
  toOx : Fin nc → K

/-- A solid phase of the table with its copies in the assemblage: `solidComp[j][ns]` and, for a solution,
`solidComp[j+1..j+na][ns]`. `ems = []` is `na == 1`. -/
structure Solid (nc : ℕ) (K : Type) where
  j : ℕ
  row : Row nc K
  ems : List (Row nc K)
  mix : List K → Fin 11 → K
  copies : List (K × List K)

/-- The state and the tables. -/
structure Sys (nc nlc : ℕ) (K : Type) where
  mw : Fin nc → K
  liquid : Fin nlc → Row nc K
  mixLiq : (Fin nlc → K) → Fin 11 → K
  bulk : Fin nc → K
  liquidMass : K
  liquids : List (Fin nlc → K)
  solids : List (Solid nc K)

/-- Properties of a liquid, library.c 899-934. -/
def liqProps (s : Sys nc nlc K) (l : Fin nlc → K) (p : Fin 11) : K :=
  s.mixLiq l p * (∑ i, l i) + ∑ i, l i * (s.liquid i).cur p

/-- Grams of the oxides of a liquid, 937. -/
def liqOx (s : Sys nc nlc K) (l : Fin nlc → K) (i : Fin nc) : K := ∑ j, (s.liquid j).toOx i * l j * s.mw i

/-- Accumulated over the liquids: properties, `oxVal`, `gramTot`, `mTot`. -/
structure Acc (nc : ℕ) (K : Type) where
  p : Fin 11 → K
  ox : Fin nc → K
  grams : K
  moles : K

/-- One pass of the loop of 895-945. `oxVal` is not reset, and what it has accumulated so far is added to `gramTot`. -/
def addLiq (s : Sys nc nlc K) (a : Acc nc K) (l : Fin nlc → K) : Acc nc K :=
  let ox := fun i => a.ox i + liqOx s l i
  { p := fun p => a.p p + liqProps s l p, ox := ox, grams := a.grams + ∑ i, ox i, moles := a.moles + ∑ i, l i }

/-- `m[i]*(solids[j+1+i].cur).x` summed. -/
def dot (f : Row nc K → K) : List (Row nc K) → List K → K
  | r :: rs, m :: ms => m * f r + dot f rs ms
  | _, _ => 0

/-- Properties of a copy of a solid, 977-988 and 1009-1043. -/
def solProps (ph : Solid nc K) (c : K × List K) (p : Fin 11) : K :=
  if ph.ems = [] then c.1 * ph.row.cur p
  else ph.mix c.2 p * c.1 + dot (fun r => r.cur p) ph.ems c.2

/-- Grams of its oxides, 1003 and 1059. -/
def solOx (s : Sys nc nlc K) (ph : Solid nc K) (c : K × List K) (i : Fin nc) : K :=
  if ph.ems = [] then ph.row.toOx i * s.mw i * c.1 else dot (fun r => r.toOx i * s.mw i) ph.ems c.2

/-- The totals: 990-1000 for a pure phase; 1045-1055 for a solution, where the last five lines all add `dVdT`. -/
def addTotal (ph : Solid nc K) (t g : Fin 11 → K) (p : Fin 11) : K :=
  if ph.ems = [] then t p + g p else if p ≤ 6 then t p + g p else t p + g 6

/-- A column of `phaseProperties` without the viscosity, and what identifies the phase. -/
structure Column (nc : ℕ) (K : Type) where
  p : Fin 11 → K
  ox : Fin nc → K
  /-- volume fraction, or grams per mole (TESTDYNAMICLIB) -/
  x : K
  density : K
  index : ℕ

/-- Volumes and their derivatives are handed out in cc: `*10.0` in rows 3 and 6-10. -/
def scale (p : Fin 11) (v : K) : K := if p = 3 ∨ 6 ≤ p then v * 10 else v

/-- library.c 961, 1079. -/
def dens [DecidableEq K] (g v : K) : K := if v ≠ 0 then 100 * g / v else 0

/-- 947-968: the column of the liquid. -/
def liqColumn [DecidableEq K] (dyn : Bool) (a : Acc nc K) : Column nc K :=
  { p := fun p => scale p (a.p p), ox := a.ox,
    x := if dyn then (if a.moles ≠ 0 then a.grams / a.moles else 0) else a.p 3 * 10,
    density := dens a.grams (a.p 3), index := if dyn then 0 else 2 }

/-- 1065-1088: the column of copy `ns` of a solid. `mTot` is `solidComp[j][ns]` or the sum of the end members. -/
def solColumn [DecidableEq K] (dyn : Bool) (s : Sys nc nlc K) (ph : Solid nc K) (ns : ℕ) (c : K × List K) : Column nc K :=
  let g := ∑ i, solOx s ph c i
  let m := if ph.ems = [] then c.1 else c.2.sum
  { p := fun p => scale p (solProps ph c p), ox := solOx s ph c,
    x := if dyn then (if m ≠ 0 then g / m else 0) else solProps ph c 3 * 10,
    density := dens g (solProps ph c 3), index := ph.j * 10 + ns + 10 }

/-- 972-1092: columns of the copies of a phase from number `ns` on, and the totals. -/
def copiesLoop [DecidableEq K] (dyn : Bool) (s : Sys nc nlc K) (ph : Solid nc K) :
    List (K × List K) → ℕ → (Fin 11 → K) × List (Column nc K) → (Fin 11 → K) × List (Column nc K)
  | [], _, a => a
  | c :: cs, ns, a => copiesLoop dyn s ph cs (ns + 1) (addTotal ph a.1 (solProps ph c), a.2 ++ [solColumn dyn s ph ns c])

def solidBlock [DecidableEq K] (dyn : Bool) (s : Sys nc nlc K) : (Fin 11 → K) × List (Column nc K) :=
  s.solids.foldl (fun a ph => copiesLoop dyn s ph ph.copies 0 a) (fun _ => 0, [])

/-- 880-969: `none` when there is no liquid. -/
def liquidBlock [DecidableEq K] (s : Sys nc nlc K) : Option (Acc nc K) :=
  if s.liquidMass ≠ 0 then some (s.liquids.foldl (addLiq s) ⟨fun _ => 0, fun _ => 0, 0, 0⟩) else none

/-- 1096-1121: the column of the system. The value under TESTDYNAMICLIB of the last row (fO2) is left out. -/
def sysColumn [DecidableEq K] (dyn : Bool) (s : Sys nc nlc K) (liq sol : Fin 11 → K) : Column nc K :=
  let g := ∑ i, s.bulk i * s.mw i
  { p := fun p => scale p (liq p + sol p), ox := fun i => s.bulk i * s.mw i,
    x := if dyn then (if ∑ i, s.bulk i ≠ 0 then g / ∑ i, s.bulk i else 0) else 1,
    density := dens g (liq 3 + sol 3), index := if dyn then 0 else 1 }

/-- 1124: the volumes become volume fractions. (The loop also divides the row of one column after the last.) -/
def fraction [DecidableEq K] (dyn : Bool) (v : K) (c : Column nc K) : Column nc K :=
  if dyn then c else if v ≠ 0 then { c with x := c.x / (10 * v) } else c

/-- The whole block: the column of the system and those of the phases, for at most one liquid column. -/
def output [DecidableEq K] (dyn : Bool) (s : Sys nc nlc K) : Column nc K × List (Column nc K) :=
  let liq := liquidBlock s
  let lp : Fin 11 → K := match liq with | some a => a.p | none => fun _ => 0
  let sol := solidBlock dyn s
  let cols := (match liq with | some a => [liqColumn dyn a] | none => []) ++ sol.2
  (sysColumn dyn s lp sol.1, cols.map (fraction dyn (lp 3 + sol.1 3)))

/-! ### Lemmas -/

/-- The copies in the order reported. -/
def insts (s : Sys nc nlc K) : List (Solid nc K × ℕ × (K × List K)) :=
  s.solids.flatMap fun ph => ph.copies.zipIdx.map fun c => (ph, c.2, c.1)

variable [DecidableEq K]

theorem copiesLoop_eq (dyn : Bool) (s : Sys nc nlc K) (ph : Solid nc K) (cs : List (K × List K)) (ns : ℕ)
    (a : (Fin 11 → K) × List (Column nc K)) :
    copiesLoop dyn s ph cs ns a =
      (fun p => a.1 p + (cs.map fun c => if ph.ems = [] then solProps ph c p else
          if p ≤ 6 then solProps ph c p else solProps ph c 6).sum,
       a.2 ++ (cs.zipIdx ns).map fun c => solColumn dyn s ph c.2 c.1) := by
  induction cs generalizing ns a with
  | nil => simp [copiesLoop]
  | cons c cs ih =>
    unfold copiesLoop
    rw [ih]
    refine Prod.ext ?_ ?_
    · funext p
      simp only [List.map_cons, List.sum_cons, addTotal]
      split_ifs <;> ring
    · simp [List.zipIdx_cons]

theorem solidBlock_eq (dyn : Bool) (s : Sys nc nlc K) :
    solidBlock dyn s =
      (fun p => ((insts s).map fun c => if c.1.ems = [] then solProps c.1 c.2.2 p else
          if p ≤ 6 then solProps c.1 c.2.2 p else solProps c.1 c.2.2 6).sum,
       (insts s).map fun c => solColumn dyn s c.1 c.2.1 c.2.2) := by
  have : ∀ (l : List (Solid nc K)) (a : (Fin 11 → K) × List (Column nc K)),
      l.foldl (fun a ph => copiesLoop dyn s ph ph.copies 0 a) a =
      (fun p => a.1 p + ((l.flatMap fun ph => ph.copies.zipIdx.map fun c => (ph, c.2, c.1)).map fun c =>
          if c.1.ems = [] then solProps c.1 c.2.2 p else
          if p ≤ 6 then solProps c.1 c.2.2 p else solProps c.1 c.2.2 6).sum,
       a.2 ++ (l.flatMap fun ph => ph.copies.zipIdx.map fun c => (ph, c.2, c.1)).map
          fun c => solColumn dyn s c.1 c.2.1 c.2.2) := by
    intro l
    induction l with
    | nil => intro a; simp
    | cons ph l ih =>
      intro a
      rw [List.foldl_cons, ih, copiesLoop_eq]
      refine Prod.ext ?_ ?_
      · funext p
        simp only [List.flatMap_cons, List.map_append, List.sum_append, List.map_map]
        rw [add_assoc]
        congr 2
        have : ∀ (f : K × List K → K) (l : List (K × List K)) (n : ℕ),
            (l.map f).sum = ((l.zipIdx n).map fun c => f c.1).sum := by
          intro f l
          induction l with
          | nil => intro n; rfl
          | cons c l ih => intro n; simp [List.zipIdx_cons, ih (n + 1)]
        rw [this _ _ 0]
        rfl
      · simp only [List.flatMap_cons, List.map_append, List.map_map, List.append_assoc]
        rfl
  unfold solidBlock insts
  rw [this]
  refine Prod.ext ?_ ?_
  · funext p; simp
  · simp

theorem liq_fold (s : Sys nc nlc K) (ls : List (Fin nlc → K)) (a : Acc nc K) :
    (ls.foldl (addLiq s) a).p = (fun p => a.p p + (ls.map fun l => liqProps s l p).sum) ∧
    (ls.foldl (addLiq s) a).ox = (fun i => a.ox i + (ls.map fun l => liqOx s l i).sum) := by
  induction ls generalizing a with
  | nil => constructor <;> (funext; simp)
  | cons l ls ih =>
    rw [List.foldl_cons]
    obtain ⟨h1, h2⟩ := ih (addLiq s a l)
    rw [h1, h2]
    constructor <;> (funext x; simp only [addLiq, List.map_cons, List.sum_cons]; ring)

theorem scale_add (p : Fin 11) (a b : K) : scale p (a + b) = scale p a + scale p b := by
  unfold scale; split_ifs <;> ring

theorem scale_sum {ι : Type} (p : Fin 11) (l : List ι) (f : ι → K) :
    scale p (l.map f).sum = (l.map fun x => scale p (f x)).sum := by
  induction l with
  | nil => unfold scale; simp
  | cons x l ih => simp only [List.map_cons, List.sum_cons, scale_add, ih]

theorem fraction_p (dyn : Bool) (v : K) (c : Column nc K) :
    (fraction dyn v c).p = c.p ∧ (fraction dyn v c).ox = c.ox ∧ (fraction dyn v c).density = c.density ∧
    (fraction dyn v c).index = c.index := by
  unfold fraction; split_ifs <;> exact ⟨rfl, rfl, rfl, rfl⟩

theorem map_fraction {β : Type} (f : Column nc K → β) (dyn : Bool) (v : K) (hf : ∀ c, f (fraction dyn v c) = f c)
    (l : List (Column nc K)) : (l.map (fraction dyn v)).map f = l.map f := by
  rw [List.map_map]; exact List.map_congr_left fun c _ => hf c

/-! ### C55 -/

/-- What the system's row `p` exceeds the sum over the phases by: nothing for G, H, S, V, Cp, dCp/dT and dV/dT; for the other
four (the derivatives of the volume) the difference between dV/dT and the derivative in question of every solution. -/
def excess (s : Sys nc nlc K) (p : Fin 11) : K :=
  if p ≤ 6 then 0 else
    ((insts s).map fun c => if c.1.ems = [] then 0 else 10 * (solProps c.1 c.2.2 6 - solProps c.1 c.2.2 p)).sum

/-- Every reported property of the system is the sum over the reported phases, plus `excess`. -/
theorem C55_system_is_sum (dyn : Bool) (s : Sys nc nlc K) (p : Fin 11) :
    (output dyn s).1.p p = ((output dyn s).2.map fun c => c.p p).sum + excess s p := by
  unfold output
  simp only
  rw [map_fraction (fun c => c.p p) dyn _ (fun c => by rw [(fraction_p dyn _ c).1])]
  rw [solidBlock_eq]
  simp only [sysColumn, List.map_append, List.sum_append, List.map_map]
  have hsol : scale p (((insts s).map fun c => if c.1.ems = [] then solProps c.1 c.2.2 p else
          if p ≤ 6 then solProps c.1 c.2.2 p else solProps c.1 c.2.2 6).sum) =
        ((insts s).map ((fun c : Column nc K => c.p p) ∘ fun c => solColumn dyn s c.1 c.2.1 c.2.2)).sum + excess s p := by
    rw [scale_sum]
    unfold excess
    by_cases hp : p ≤ 6
    · rw [if_pos hp, add_zero]
      congr 1
      refine List.map_congr_left fun c _ => ?_
      simp only [hp, if_true, ite_self, Function.comp_apply, solColumn]
    · rw [if_neg hp]
      have h6 : 6 ≤ p := le_of_lt (not_le.mp hp)
      rw [← List.sum_map_add]
      congr 1
      refine List.map_congr_left fun c _ => ?_
      simp only [hp, if_false, Function.comp_apply, solColumn, scale, h6, or_true, if_true]
      split_ifs <;> ring
  rw [scale_add, hsol, ← add_assoc]
  congr 2
  cases liquidBlock s with
  | none => simp [scale]
  | some a => simp [liqColumn]

/-- The first seven. -/
theorem C55_first_seven (dyn : Bool) (s : Sys nc nlc K) (p : Fin 11) (hp : p ≤ 6) :
    (output dyn s).1.p p = ((output dyn s).2.map fun c => c.p p).sum := by
  rw [C55_system_is_sum dyn s p, excess, if_pos hp, add_zero]

/-- The compressibility of a system that contains a solution is wrong, unless dV/dT and dV/dP happen to agree over the
solutions. -/
theorem C55_derivatives_wrong (dyn : Bool) (s : Sys nc nlc K) (p : Fin 11) (hp : ¬ p ≤ 6) :
    (output dyn s).1.p p = ((output dyn s).2.map fun c => c.p p).sum ↔
      ((insts s).map fun c => if c.1.ems = [] then 0 else 10 * (solProps c.1 c.2.2 6 - solProps c.1 c.2.2 p)).sum = 0 := by
  rw [C55_system_is_sum dyn s p, excess, if_neg hp]
  constructor
  · intro h; exact left_eq_add.mp h.symm
  · intro h; rw [h, add_zero]

/-- Mass balance of the assemblage: liquids and solids together contain the bulk composition (properties C01-C06, C49). -/
def Balanced (s : Sys nc nlc K) : Prop :=
  ∀ i, (s.liquids.map fun l => ∑ j, (s.liquid j).toOx i * l j).sum +
      ((insts s).map fun c => if c.1.ems = [] then c.1.row.toOx i * c.2.2.1 else dot (fun r => r.toOx i) c.1.ems c.2.2.2).sum =
    s.bulk i

theorem dot_mul (f : Row nc K → K) (k : K) (rs : List (Row nc K)) (ms : List K) :
    dot (fun r => f r * k) rs ms = dot f rs ms * k := by
  induction rs generalizing ms with
  | nil => simp [dot]
  | cons r rs ih =>
    cases ms with
    | nil => simp [dot]
    | cons m ms => simp only [dot, ih]; ring

theorem sum_mul_right {ι : Type} (l : List ι) (f : ι → K) (k : K) : (l.map fun x => f x * k).sum = (l.map f).sum * k := by
  induction l with
  | nil => simp
  | cons x l ih => simp only [List.map_cons, List.sum_cons, ih]; ring

/-- For every oxide, the grams reported for the phases add up to those reported for the system. -/
theorem C55_oxides (dyn : Bool) (s : Sys nc nlc K) (hb : Balanced s) (hl : s.liquidMass = 0 → s.liquids = []) (i : Fin nc) :
    ((output dyn s).2.map fun c => c.ox i).sum = (output dyn s).1.ox i := by
  unfold output
  simp only
  rw [map_fraction (fun c => c.ox i) dyn _ (fun c => by rw [(fraction_p dyn _ c).2.1])]
  rw [solidBlock_eq]
  simp only [sysColumn, List.map_append, List.sum_append, List.map_map]
  rw [← hb i, add_mul, ← sum_mul_right, ← sum_mul_right]
  congr 1
  · unfold liquidBlock
    by_cases h : s.liquidMass = 0
    · simp [h, hl h]
    · rw [if_pos h]
      simp only [List.map_cons, List.map_nil, List.sum_cons, List.sum_nil, add_zero, liqColumn]
      rw [(liq_fold s s.liquids _).2]
      simp only [zero_add]
      congr 1
      refine List.map_congr_left fun l _ => ?_
      simp only [liqOx, sum_mul]
  · congr 1
    refine List.map_congr_left fun c _ => ?_
    simp only [Function.comp_apply, solColumn, solOx]
    split_ifs
    · ring
    · exact dot_mul _ _ _ _

/-- Without TESTDYNAMICLIB: the reported volume fractions of the phases add up to one. -/
theorem C55_fractions (s : Sys nc nlc K) (hv : (output false s).1.p 3 ≠ 0) :
    ((output false s).2.map fun c => c.x).sum = 1 ∧ ∀ c ∈ (output false s).2, c.x = c.p 3 / (output false s).1.p 3 := by
  have hs := C55_first_seven false s 3 (by decide)
  have key : ∀ c ∈ (output false s).2, c.x = c.p 3 / (output false s).1.p 3 := by
    intro c hc
    unfold output at hc hv ⊢
    simp only [List.mem_map] at hc ⊢
    obtain ⟨d, hd, rfl⟩ := hc
    rw [(fraction_p false _ d).1]
    simp only [sysColumn, scale, true_or, if_true] at hv ⊢
    have hv' : (match liquidBlock s with | some a => a.p | none => fun _ => 0) 3 + (solidBlock false s).1 3 ≠ 0 :=
      fun h => hv (by rw [h, zero_mul])
    unfold fraction
    simp only [Bool.false_eq_true, if_false]
    rw [if_pos hv']
    have hx : d.x = d.p 3 := by
      rw [solidBlock_eq] at hd
      simp only [List.mem_append, List.mem_map] at hd
      rcases hd with hd | ⟨e, _, rfl⟩
      · cases hq : liquidBlock s with
        | none => rw [hq] at hd; simp at hd
        | some a => rw [hq] at hd; simp at hd; subst hd; simp [liqColumn, scale]
      · simp [solColumn, scale]
    simp only [hx]
    rw [mul_comm (10 : K)]
  refine ⟨?_, key⟩
  rw [List.map_congr_left key]
  have : ((output false s).2.map fun c => c.p 3 / (output false s).1.p 3) =
      (output false s).2.map fun c => c.p 3 * ((output false s).1.p 3)⁻¹ := List.map_congr_left fun c _ => div_eq_mul_inv _ _
  rw [this, sum_mul_right, ← hs]
  exact mul_inv_cancel₀ hv

/-- The density of a solid is its mass (sum of the oxides reported) over its volume, in kilograms per cubic metre. -/
theorem C55_density_solid (dyn : Bool) (s : Sys nc nlc K) (ph : Solid nc K) (ns : ℕ) (c : K × List K)
    (hv : (solColumn dyn s ph ns c).p 3 ≠ 0) (h10 : (10 : K) ≠ 0) :
    (solColumn dyn s ph ns c).density = 1000 * (∑ i, (solColumn dyn s ph ns c).ox i) / (solColumn dyn s ph ns c).p 3 := by
  simp only [solColumn, scale, true_or, if_true] at hv ⊢
  have hv' : solProps ph c 3 ≠ 0 := fun h => hv (by rw [h, zero_mul])
  unfold dens
  rw [if_pos hv']
  field_simp
  norm_num
  ring

/-- ... that of the liquid too if there is one liquid only ... -/
theorem C55_density_liquid (dyn : Bool) (s : Sys nc nlc K) (l : Fin nlc → K) (a : Acc nc K)
    (ha : a = [l].foldl (addLiq s) ⟨fun _ => 0, fun _ => 0, 0, 0⟩)
    (hv : (liqColumn dyn a).p 3 ≠ 0) (h10 : (10 : K) ≠ 0) :
    (liqColumn dyn a).density = 1000 * (∑ i, (liqColumn dyn a).ox i) / (liqColumn dyn a).p 3 := by
  simp only [liqColumn, scale, true_or, if_true] at hv ⊢
  have hv' : a.p 3 ≠ 0 := fun h => hv (by rw [h, zero_mul])
  have hg : a.grams = ∑ i, a.ox i := by rw [ha]; simp [addLiq]
  unfold dens
  rw [if_pos hv', hg]
  field_simp
  norm_num
  ring

/-- ... but with two immiscible liquids the first one's mass is counted twice. -/
theorem C55_two_liquids (s : Sys nc nlc K) (l l' : Fin nlc → K) :
    ([l, l'].foldl (addLiq s) ⟨fun _ => 0, fun _ => 0, 0, 0⟩).grams =
      2 * (∑ i, liqOx s l i) + ∑ i, liqOx s l' i := by
  simp only [List.foldl_cons, List.foldl_nil, addLiq, zero_add, sum_add_distrib]
  ring

/-- The index reported for a solid identifies the phase and its copy, as long as there are at most ten copies; it is never
one of the indices of the system and the liquid. -/
theorem C55_index (dyn : Bool) (s : Sys nc nlc K) (ph ph' : Solid nc K) (ns ns' : ℕ) (c c' : K × List K) (h : ns < 10)
    (h' : ns' < 10) (he : (solColumn dyn s ph ns c).index = (solColumn dyn s ph' ns' c').index) :
    ph.j = ph'.j ∧ ns = ns' ∧ 10 ≤ (solColumn dyn s ph ns c).index := by
  simp only [solColumn] at he ⊢
  omega

lemma dot_smul (f : Row nc K → K) (k : K) : ∀ (rs : List (Row nc K)) (ms : List K), dot f rs (ms.map (k * ·)) = k * dot f rs ms
  | [], _ => by simp [dot]
  | _ :: _, [] => by simp [dot]
  | r :: rs, m :: ms => by simp only [List.map_cons, dot, dot_smul f k rs ms]; ring

/-- Properties and oxides of a solid are extensive: the same solid in `k` times the amount has `k` times as much of them, its
mixing properties per mole depending on the proportions only. -/
theorem C55_extensive (dyn : Bool) (s : Sys nc nlc K) (ph : Solid nc K) (ns : ℕ) (c : K × List K) (k : K)
    (hmix : ph.mix (c.2.map (k * ·)) = ph.mix c.2) (p : Fin 11) (i : Fin nc) :
    (solColumn dyn s ph ns (k * c.1, c.2.map (k * ·))).p p = k * (solColumn dyn s ph ns c).p p ∧
    (solColumn dyn s ph ns (k * c.1, c.2.map (k * ·))).ox i = k * (solColumn dyn s ph ns c).ox i := by
  constructor
  · simp only [solColumn]
    have : solProps ph (k * c.1, c.2.map (k * ·)) p = k * solProps ph c p := by
      unfold solProps
      split_ifs
      · ring
      · rw [hmix, dot_smul]; ring
    rw [this]
    unfold scale
    split_ifs <;> ring
  · simp only [solColumn]
    unfold solOx
    split_ifs
    · ring
    · rw [dot_smul]

/-- A mixture of two end members, ten times as much. -/
example : (fun _ _ => 0 : List ℚ → Fin 11 → ℚ) ([1, 1].map (10 * ·)) = (fun _ _ => 0 : List ℚ → Fin 11 → ℚ) [1, 1] := rfl

/-! ### A concrete case -/

/-- One oxide, one liquid component, olivine with two end members and quartz; balanced. -/
def exS : Sys 1 1 ℚ where
  mw := ![60]
  liquid := fun _ => ⟨fun _ => 1, fun _ => 1⟩
  mixLiq := fun _ _ => 0
  bulk := ![6]
  liquidMass := 120
  liquids := [fun _ => 2]
  solids := [⟨3, ⟨fun _ => 0, fun _ => 0⟩, [⟨fun p => p.val, fun _ => 1⟩, ⟨fun _ => 1, fun _ => 1⟩], fun _ _ => 0, [(2, [1, 1])]⟩,
             ⟨6, ⟨fun _ => 3, fun _ => 1⟩, [], fun _ _ => 0, [(2, [])]⟩]

example : Balanced exS ∧ (exS.liquidMass = 0 → exS.liquids = []) := by
  constructor
  · intro i; fin_cases i; decide +kernel
  · intro h; exact absurd h (by decide +kernel)
example : (output false exS).1.p 3 ≠ 0 := by decide +kernel
example : (output false exS).1.p 7 ≠ ((output false exS).2.map fun c => c.p 7).sum := by decide +kernel

end Magma.Lib.Output
