import Verif.Prelude
import Mathlib.Data.List.Nodup

/-!
Model of `copySilminStateStructure`, /repo/sources/silmin_support.c 410-725, used to save and restore
states (silmin.c 1136, 1178; linear_search.c 232-346; interface.c 2817).

Two levels:
* a heap of numeric blocks for the branch that allocates a new structure (414-535), so that sharing
  of blocks between original and copy can be stated;
* the contents only ("image") for the branch that overwrites an existing structure (536-722).

Simplifications: the flat table is grouped by phases (row 0 of a phase is its total, the other rows
its end-members); blocks of `int` are modelled as blocks of numbers; the outer arrays of pointers are
part of the structure value; all scalar members that the second branch copies are one value of an
arbitrary type `S`, those it does not copy (`ySol`, `yLiq`, `ready_to_output`) one value of type `R`.
-/

namespace Magma.Engine.Copy

/-- A pointer to a block of numbers. -/
abbrev Ref := ℕ

/-- Memory: contents of every block, and the next unused block (`malloc`/`calloc` return it). -/
structure Heap (K : Type) where
  mem : Ref → List K
  next : Ref

/-- A PHASE with its `nSolidCoexist[i]` and the blocks `solidComp[i]`, `solidComp[i+1..i+na]`,
`solidDelta[..]` (/repo/includes/silmin.h 670-672). -/
structure PhaseObj where
  count : ℕ
  rows : List Ref
  deltas : List Ref

/-- A PHASE in the fractionated reservoir: `nFracCoexist[i]` and the blocks `fracSComp[i..i+na]`
(silmin.h 706-707). A row that was never allocated is `none`. -/
structure FracObj where
  count : ℕ
  rows : List (Option Ref)

/-- One entry of `nAssimComp`/`assimComp` or `nDspAssimComp`/`dspAssimComp` (silmin.h 722-730). -/
structure AssimObj where
  count : ℕ
  row : Option Ref

/-- The switches which steer the copy (silmin.h 703-705, 721). -/
structure Sw where
  fSol : Bool
  fFlu : Bool
  fLiq : Bool
  assimilate : Bool
deriving DecidableEq

/-- `SilminState` (silmin.h 658-743) with pointers. -/
structure Obj (S R : Type) where
  bulk : Ref
  dspBulk : Ref
  inc : Ref
  cyl : Ref
  liqs : List (Ref × Ref)
  solids : List PhaseObj
  fracS : Option (List FracObj)
  fracL : Option Ref
  dspAssim : Option (List AssimObj)
  assim : Option (List AssimObj)
  sw : Sw
  sc : S
  rest : R

variable {K S R : Type}

/-- `malloc` followed by filling the block. -/
def alloc (xs : List K) (h : Heap K) : Ref × Heap K :=
  (h.next, ⟨Function.update h.mem h.next xs, h.next + 1⟩)

/-- Allocate several blocks. -/
def allocs : List (List K) → Heap K → List Ref × Heap K
  | [], h => ([], h)
  | x :: xs, h =>
    let a := alloc x h
    let b := allocs xs a.2
    (a.1 :: b.1, b.2)

/-- silmin_support.c 422-462: the liquids. -/
def dupLiqs : List (Ref × Ref) → Heap K → List (Ref × Ref) × Heap K
  | [], h => ([], h)
  | p :: ps, h =>
    let a := alloc (h.mem p.1) h
    let b := alloc (h.mem p.2) a.2
    let c := dupLiqs ps b.2
    ((a.1, b.1) :: c.1, c.2)

/-- silmin_support.c 464-489: copy the first `ns` entries of every row of a phase that is present;
one zero per row of a phase that is absent. -/
def dupPhase [Zero K] (p : PhaseObj) (h : Heap K) : PhaseObj × Heap K :=
  let src := fun rs : List Ref => rs.map fun r => if 0 < p.count then (h.mem r).take p.count else [0]
  let a := allocs (src p.rows) h
  let b := allocs (src p.deltas) a.2
  (⟨p.count, a.1, b.1⟩, b.2)

/-- silmin_support.c 464-489, all phases. -/
def dupPhases [Zero K] : List PhaseObj → Heap K → List PhaseObj × Heap K
  | [], h => ([], h)
  | p :: ps, h =>
    let a := dupPhase p h
    let b := dupPhases ps a.2
    (a.1 :: b.1, b.2)

/-- A row of a copied reservoir: allocated only when `count > 0`, then the first `count` entries
(silmin_support.c 497-503, 521-526, 530-533). -/
def dupRow (count : ℕ) (r : Option Ref) (h : Heap K) : Option Ref × Heap K :=
  if 0 < count then
    let a := alloc (((r.map h.mem).getD []).take count) h
    (some a.1, a.2)
  else (none, h)

/-- Rows of one phase of the reservoir. -/
def dupRows (count : ℕ) : List (Option Ref) → Heap K → List (Option Ref) × Heap K
  | [], h => ([], h)
  | r :: rs, h =>
    let a := dupRow count r h
    let b := dupRows count rs a.2
    (a.1 :: b.1, b.2)

/-- silmin_support.c 495-505. -/
def dupFracs : List FracObj → Heap K → List FracObj × Heap K
  | [], h => ([], h)
  | f :: fs, h =>
    let a := dupRows f.count f.rows h
    let b := dupFracs fs a.2
    (⟨f.count, a.1⟩ :: b.1, b.2)

/-- silmin_support.c 519-534. -/
def dupAssims : List AssimObj → Heap K → List AssimObj × Heap K
  | [], h => ([], h)
  | f :: fs, h =>
    let a := dupRow f.count f.row h
    let b := dupAssims fs a.2
    (⟨f.count, a.1⟩ :: b.1, b.2)

/-- silmin_support.c 491-507: with solid or fluid fractionation on, a new reservoir (empty if the old
one is a null pointer); otherwise the pointer copied by `memcpy` (419) stays. `shape` is the number
of rows of every phase. -/
def dupFracS (shape : List ℕ) (sw : Sw) (fr : Option (List FracObj)) (h : Heap K) :
    Option (List FracObj) × Heap K :=
  if sw.fSol || sw.fFlu then
    match fr with
    | some fs => let a := dupFracs fs h; (some a.1, a.2)
    | none => (some (shape.map fun n => ⟨0, List.replicate n none⟩), h)
  else (fr, h)

/-- silmin_support.c 509-512. -/
def dupFracL [Zero K] (nlc : ℕ) (sw : Sw) (fr : Option Ref) (h : Heap K) : Option Ref × Heap K :=
  if sw.fLiq then
    let a := alloc ((fr.map h.mem).getD (List.replicate nlc 0)) h
    (some a.1, a.2)
  else (fr, h)

/-- silmin_support.c 514-535 (one of the two lists). With `assimilate` on and a null pointer the code
would dereference it; the model then returns an empty list. -/
def dupAssim (sw : Sw) (fr : Option (List AssimObj)) (h : Heap K) :
    Option (List AssimObj) × Heap K :=
  if sw.assimilate then
    let a := dupAssims (fr.getD []) h
    (some a.1, a.2)
  else (fr, h)

/-- silmin_support.c 414-535: copy into a new structure. -/
def copyFresh [Zero K] (nlc : ℕ) (o : Obj S R) (h : Heap K) : Obj S R × Heap K :=
  let b := allocs [h.mem o.bulk, h.mem o.dspBulk, h.mem o.inc, h.mem o.cyl] h
  let l := dupLiqs o.liqs b.2
  let s := dupPhases o.solids l.2
  let fs := dupFracS (o.solids.map fun p => p.rows.length) o.sw o.fracS s.2
  let fl := dupFracL nlc o.sw o.fracL fs.2
  let d := dupAssim o.sw o.dspAssim fl.2
  let a := dupAssim o.sw o.assim d.2
  ({ bulk := b.1.getD 0 0, dspBulk := b.1.getD 1 0, inc := b.1.getD 2 0, cyl := b.1.getD 3 0
     liqs := l.1, solids := s.1, fracS := fs.1, fracL := fl.1, dspAssim := d.1, assim := a.1
     sw := o.sw, sc := o.sc, rest := o.rest }, a.2)

/-! ### Specification vocabulary -/

/-- The blocks of a structure which are reachable from it. -/
def optRefs (r : Option Ref) : List Ref := r.toList

/-- Blocks of the fractionated solids. -/
def fracRefs (fs : Option (List FracObj)) : List Ref :=
  (fs.getD []).flatMap fun f => f.rows.flatMap optRefs

/-- Blocks of an assimilant list. -/
def assimRefs (fs : Option (List AssimObj)) : List Ref :=
  (fs.getD []).flatMap fun f => optRefs f.row

/-- Blocks that hold the bulk composition, the liquids and the solids. -/
def coreRefs (o : Obj S R) : List Ref :=
  [o.bulk, o.dspBulk, o.inc, o.cyl] ++ o.liqs.flatMap (fun p => [p.1, p.2]) ++
    o.solids.flatMap fun p => p.rows ++ p.deltas

/-- All blocks reachable from a structure. -/
def allRefs (o : Obj S R) : List Ref :=
  coreRefs o ++ fracRefs o.fracS ++ optRefs o.fracL ++ assimRefs o.dspAssim ++ assimRefs o.assim

/-- Contents of a structure: what can be read through it. -/
structure Img (K S R : Type) where
  bulk : List K
  dspBulk : List K
  inc : List K
  cyl : List K
  liqs : List (List K × List K)
  solids : List (ℕ × List (List K) × List (List K))
  fracS : Option (List (ℕ × List (Option (List K))))
  fracL : Option (List K)
  dspAssim : Option (List (ℕ × Option (List K)))
  assim : Option (List (ℕ × Option (List K)))
  sw : Sw
  sc : S
  rest : R

/-- Read a structure through memory `m`. -/
def view (m : Ref → List K) (o : Obj S R) : Img K S R where
  bulk := m o.bulk
  dspBulk := m o.dspBulk
  inc := m o.inc
  cyl := m o.cyl
  liqs := o.liqs.map fun p => (m p.1, m p.2)
  solids := o.solids.map fun p => (p.count, p.rows.map m, p.deltas.map m)
  fracS := o.fracS.map fun fs => fs.map fun f => (f.count, f.rows.map fun r => r.map m)
  fracL := o.fracL.map m
  dspAssim := o.dspAssim.map fun fs => fs.map fun f => (f.count, f.row.map m)
  assim := o.assim.map fun fs => fs.map fun f => (f.count, f.row.map m)
  sw := o.sw
  sc := o.sc
  rest := o.rest

/-- The allocation discipline of the program: every block is allocated; a row of a phase has as many
entries as the phase has copies, at least one (allocSilminStatePointer 351-354, silmin.c 702, 1473);
rows of the reservoirs are allocated exactly when the count is positive, with that many entries; a
switch that is on has its arrays. -/
structure WF (o : Obj S R) (h : Heap K) : Prop where
  alloc : ∀ r ∈ allRefs o, r < h.next
  rows : ∀ p ∈ o.solids, ∀ r ∈ p.rows ++ p.deltas, (h.mem r).length = max p.count 1
  frac : ∀ fs, o.fracS = some fs → ∀ f ∈ fs, ∀ r ∈ f.rows,
    (0 < f.count → ∃ q, r = some q ∧ (h.mem q).length = f.count) ∧ (f.count = 0 → r = none)
  dsp : ∀ fs, o.dspAssim = some fs → ∀ f ∈ fs,
    (0 < f.count → ∃ q, f.row = some q ∧ (h.mem q).length = f.count) ∧ (f.count = 0 → f.row = none)
  asm : ∀ fs, o.assim = some fs → ∀ f ∈ fs,
    (0 < f.count → ∃ q, f.row = some q ∧ (h.mem q).length = f.count) ∧ (f.count = 0 → f.row = none)
  fracOn : o.sw.fSol = true ∨ o.sw.fFlu = true → o.fracS ≠ none
  liqOn : o.sw.fLiq = true → o.fracL ≠ none
  asmOn : o.sw.assimilate = true → o.dspAssim ≠ none ∧ o.assim ≠ none

/-! ### Lemmas about allocation -/

/-- Memory grew: old blocks are untouched. -/
def Ext (h h' : Heap K) : Prop := h.next ≤ h'.next ∧ ∀ r < h.next, h'.mem r = h.mem r

theorem Ext.refl (h : Heap K) : Ext h h := ⟨le_refl _, fun _ _ => rfl⟩

theorem Ext.trans {a b c : Heap K} (x : Ext a b) (y : Ext b c) : Ext a c :=
  ⟨x.1.trans y.1, fun r hr => by rw [y.2 r (lt_of_lt_of_le hr x.1), x.2 r hr]⟩

theorem ext_alloc (xs : List K) (h : Heap K) : Ext h (alloc xs h).2 :=
  ⟨Nat.le_succ _, fun r hr => by simp [alloc, Function.update_of_ne (Nat.ne_of_lt hr)]⟩

/-- Blocks allocated between two memories. -/
def Between (h h' : Heap K) (rs : List Ref) : Prop := ∀ r ∈ rs, h.next ≤ r ∧ r < h'.next

theorem Between.mono {a b c d : Heap K} {rs : List Ref} (x : Between b c rs) (h1 : a.next ≤ b.next)
    (h2 : c.next ≤ d.next) : Between a d rs :=
  fun r hr => ⟨h1.trans (x r hr).1, (x r hr).2.trans_le h2⟩

theorem alloc_read (xs : List K) (h : Heap K) : (alloc xs h).2.mem (alloc xs h).1 = xs := by
  simp [alloc]

theorem alloc_between (xs : List K) (h : Heap K) : Between h (alloc xs h).2 [(alloc xs h).1] := by
  intro r hr
  simp only [alloc, List.mem_singleton] at hr
  subst hr
  exact ⟨le_refl _, Nat.lt_succ_self _⟩

theorem allocs_spec (xs : List (List K)) (h : Heap K) :
    Ext h (allocs xs h).2 ∧ Between h (allocs xs h).2 (allocs xs h).1 ∧
      (∀ h', Ext (allocs xs h).2 h' → (allocs xs h).1.map h'.mem = xs) := by
  induction xs generalizing h with
  | nil => exact ⟨Ext.refl h, fun r hr => by simp [allocs] at hr, fun _ _ => by simp [allocs]⟩
  | cons x xs ih =>
    obtain ⟨e, b, v⟩ := ih (alloc x h).2
    have e0 := ext_alloc x h
    refine ⟨e0.trans e, ?_, ?_⟩
    · intro r hr
      simp only [allocs, List.mem_cons] at hr
      rcases hr with rfl | hr
      · exact (alloc_between x h).mono (le_refl _) e.1 _ (by simp)
      · exact b.mono e0.1 (le_refl _) r hr
    · intro h' e'
      simp only [allocs, List.map_cons]
      refine congrArg₂ _ ?_ (v h' e')
      rw [(e.trans e').2 _ ((alloc_between x h) _ (by simp)).2, alloc_read]

theorem map_ext {h h' : Heap K} (e : Ext h h') {rs : List Ref} (hr : ∀ r ∈ rs, r < h.next) :
    rs.map h'.mem = rs.map h.mem :=
  List.map_congr_left fun r hm => e.2 r (hr r hm)

theorem dupLiqs_spec (ps : List (Ref × Ref)) (h : Heap K)
    (hw : ∀ p ∈ ps, p.1 < h.next ∧ p.2 < h.next) :
    Ext h (dupLiqs ps h).2 ∧
      Between h (dupLiqs ps h).2 ((dupLiqs ps h).1.flatMap fun p => [p.1, p.2]) ∧
      (∀ h', Ext (dupLiqs ps h).2 h' → (dupLiqs ps h).1.map (fun p => (h'.mem p.1, h'.mem p.2))
        = ps.map fun p => (h.mem p.1, h.mem p.2)) := by
  induction ps generalizing h with
  | nil => exact ⟨Ext.refl h, fun r hr => by simp [dupLiqs] at hr, fun _ _ => by simp [dupLiqs]⟩
  | cons p ps ih =>
    have e0 := ext_alloc (h.mem p.1) h
    have e1 := ext_alloc (h.mem p.2) (alloc (h.mem p.1) h).2
    have hw' : ∀ q ∈ ps, q.1 < (alloc (h.mem p.2) (alloc (h.mem p.1) h).2).2.next ∧
        q.2 < (alloc (h.mem p.2) (alloc (h.mem p.1) h).2).2.next := fun q hq =>
      have := hw q (List.mem_cons_of_mem _ hq)
      ⟨this.1.trans_le (e0.trans e1).1, this.2.trans_le (e0.trans e1).1⟩
    obtain ⟨e, b, v⟩ := ih _ hw'
    refine ⟨(e0.trans e1).trans e, ?_, ?_⟩
    · intro r hr
      simp only [dupLiqs, List.flatMap_cons, List.mem_append, List.mem_cons, List.not_mem_nil,
        or_false] at hr
      rcases hr with (rfl | rfl) | hr
      · exact (alloc_between (h.mem p.1) h).mono (le_refl _) (e1.trans e).1 _ (by simp)
      · exact (alloc_between (h.mem p.2) _).mono e0.1 e.1 _ (by simp)
      · exact b.mono (e0.trans e1).1 (le_refl _) r hr
    · intro h' e'
      simp only [dupLiqs, List.map_cons]
      refine congrArg₂ _ ?_ ?_
      · rw [((e1.trans e).trans e').2 _ ((alloc_between (h.mem p.1) h) _ (by simp)).2, alloc_read,
          (e.trans e').2 _ ((alloc_between (h.mem p.2) _) _ (by simp)).2, alloc_read]
      · rw [v h' e']
        refine List.map_congr_left fun q hq => ?_
        have hq := hw q (List.mem_cons_of_mem _ hq)
        rw [(e0.trans e1).2 _ hq.1, (e0.trans e1).2 _ hq.2]

/-- What a copied phase contains: the same copies if it is present, zeros if it is absent. -/
def freshPhase [Zero K] (x : ℕ × List (List K) × List (List K)) :
    ℕ × List (List K) × List (List K) :=
  if 0 < x.1 then x else (x.1, x.2.1.map fun _ => [0], x.2.2.map fun _ => [0])

theorem dupPhases_spec [Zero K] (ps : List PhaseObj) (h : Heap K)
    (hw : ∀ p ∈ ps, ∀ r ∈ p.rows ++ p.deltas, r < h.next ∧ (h.mem r).length = max p.count 1) :
    Ext h (dupPhases ps h).2 ∧
      Between h (dupPhases ps h).2 ((dupPhases ps h).1.flatMap fun p => p.rows ++ p.deltas) ∧
      (∀ h', Ext (dupPhases ps h).2 h' →
        (dupPhases ps h).1.map (fun p => (p.count, p.rows.map h'.mem, p.deltas.map h'.mem))
        = ps.map fun p => freshPhase (p.count, p.rows.map h.mem, p.deltas.map h.mem)) := by
  induction ps generalizing h with
  | nil =>
    exact ⟨Ext.refl h, fun r hr => by simp [dupPhases] at hr, fun _ _ => by simp [dupPhases]⟩
  | cons p ps ih =>
    have key : ∀ rs : List Ref, (∀ r ∈ rs, (h.mem r).length = max p.count 1) →
        (rs.map fun r => if 0 < p.count then (h.mem r).take p.count else [0]) =
        if 0 < p.count then rs.map h.mem else rs.map fun _ => [0] := by
      intro rs hrs
      by_cases hc : 0 < p.count
      · simp only [hc, if_true]
        refine List.map_congr_left fun r hr => ?_
        have := hrs r hr
        rw [List.take_of_length_le]
        omega
      · simp only [hc, if_false]
    obtain ⟨ea, ba, va⟩ := allocs_spec
      (p.rows.map fun r => if 0 < p.count then (h.mem r).take p.count else [0]) h
    obtain ⟨eb, bb, vb⟩ := allocs_spec
      (p.deltas.map fun r => if 0 < p.count then (h.mem r).take p.count else [0])
      (allocs (p.rows.map fun r => if 0 < p.count then (h.mem r).take p.count else [0]) h).2
    have hrw : ∀ r ∈ p.rows, (h.mem r).length = max p.count 1 := fun r hr =>
      (hw p (by simp) r (by simp [hr])).2
    have hrd : ∀ r ∈ p.deltas, (h.mem r).length = max p.count 1 := fun r hr =>
      (hw p (by simp) r (by simp [hr])).2
    have e0 : Ext h (dupPhase p h).2 := ea.trans eb
    have hw' : ∀ q ∈ ps, ∀ r ∈ q.rows ++ q.deltas,
        r < (dupPhase p h).2.next ∧ ((dupPhase p h).2.mem r).length = max q.count 1 := by
      intro q hq r hr
      have := hw q (List.mem_cons_of_mem _ hq) r hr
      exact ⟨this.1.trans_le e0.1, by rw [e0.2 r this.1]; exact this.2⟩
    obtain ⟨e, b, v⟩ := ih _ hw'
    refine ⟨e0.trans e, ?_, ?_⟩
    · intro r hr
      simp only [dupPhases, List.flatMap_cons, List.mem_append] at hr
      rcases hr with (hr | hr) | hr
      · exact ba.mono (le_refl _) (eb.trans e).1 r hr
      · exact bb.mono ea.1 e.1 r hr
      · exact b.mono e0.1 (le_refl _) r (by simpa using hr)
    · intro h' e'
      simp only [dupPhases, List.map_cons]
      refine congrArg₂ _ ?_ ?_
      · have h1 := va h' ((eb.trans e).trans e')
        have h2 := vb h' (e.trans e')
        simp only [dupPhase, freshPhase]
        rw [h1, h2, key _ hrw, key _ hrd]
        by_cases hc : 0 < p.count
        · simp only [hc, if_true]
        · simp only [hc, if_false, List.map_map]
          rfl
      · rw [v h' e']
        refine List.map_congr_left fun q hq => ?_
        have hq := hw q (List.mem_cons_of_mem _ hq)
        rw [map_ext e0 fun r hr => (hq r (by simp [hr])).1,
          map_ext e0 fun r hr => (hq r (by simp [hr])).1]

/-- Discipline for a row of a reservoir. -/
def RowWF (h : Heap K) (count : ℕ) (r : Option Ref) : Prop :=
  (0 < count → ∃ q, r = some q ∧ (h.mem q).length = count) ∧ (count = 0 → r = none)

theorem dupRow_spec (c : ℕ) (r : Option Ref) (h : Heap K) (hr : RowWF h c r) :
    Ext h (dupRow c r h).2 ∧ Between h (dupRow c r h).2 (optRefs (dupRow c r h).1) ∧
      (∀ h', Ext (dupRow c r h).2 h' → (dupRow c r h).1.map h'.mem = r.map h.mem) := by
  unfold dupRow
  by_cases hc : 0 < c
  · obtain ⟨q, rfl, hq⟩ := hr.1 hc
    simp only [hc, if_true, Option.map_some, Option.getD_some]
    rw [List.take_of_length_le hq.le]
    refine ⟨ext_alloc _ h, ?_, fun h' e' => ?_⟩
    · simpa [optRefs] using alloc_between (h.mem q) h
    · rw [e'.2 _ ((alloc_between (h.mem q) h) _ (by simp)).2, alloc_read]
  · have := hr.2 (by omega)
    subst this
    simp [hc, Ext.refl, Between, optRefs]

theorem RowWF.ext {h h' : Heap K} {c : ℕ} {r : Option Ref} (e : Ext h h') (hr : RowWF h c r)
    (hb : ∀ q ∈ optRefs r, q < h.next) : RowWF h' c r := by
  refine ⟨fun hc => ?_, hr.2⟩
  obtain ⟨q, rfl, hq⟩ := hr.1 hc
  exact ⟨q, rfl, by rw [e.2 q (hb q (by simp [optRefs])), hq]⟩

theorem optmap_ext {h h' : Heap K} (e : Ext h h') {r : Option Ref}
    (hb : ∀ q ∈ optRefs r, q < h.next) : r.map h'.mem = r.map h.mem := by
  cases r with
  | none => rfl
  | some q => simp [e.2 q (hb q (by simp [optRefs]))]

theorem dupRows_spec (c : ℕ) (rs : List (Option Ref)) (h : Heap K)
    (hr : ∀ r ∈ rs, RowWF h c r ∧ ∀ q ∈ optRefs r, q < h.next) :
    Ext h (dupRows c rs h).2 ∧ Between h (dupRows c rs h).2 ((dupRows c rs h).1.flatMap optRefs) ∧
      (∀ h', Ext (dupRows c rs h).2 h' →
        (dupRows c rs h).1.map (fun r => r.map h'.mem) = rs.map fun r => r.map h.mem) := by
  induction rs generalizing h with
  | nil => exact ⟨Ext.refl h, fun r hr => by simp [dupRows] at hr, fun _ _ => by simp [dupRows]⟩
  | cons r rs ih =>
    obtain ⟨e0, b0, v0⟩ := dupRow_spec c r h (hr r (by simp)).1
    have hr' : ∀ q ∈ rs, RowWF (dupRow c r h).2 c q ∧ ∀ x ∈ optRefs q, x < (dupRow c r h).2.next :=
      fun q hq =>
        have := hr q (List.mem_cons_of_mem _ hq)
        ⟨this.1.ext e0 this.2, fun x hx => (this.2 x hx).trans_le e0.1⟩
    obtain ⟨e, b, v⟩ := ih _ hr'
    refine ⟨e0.trans e, ?_, ?_⟩
    · intro x hx
      simp only [dupRows, List.flatMap_cons, List.mem_append] at hx
      rcases hx with hx | hx
      · exact b0.mono (le_refl _) e.1 x hx
      · exact b.mono e0.1 (le_refl _) x hx
    · intro h' e'
      simp only [dupRows, List.map_cons]
      refine congrArg₂ _ (v0 h' (e.trans e')) ?_
      rw [v h' e']
      exact List.map_congr_left fun q hq => optmap_ext e0 (hr q (List.mem_cons_of_mem _ hq)).2

theorem dupFracs_spec (fs : List FracObj) (h : Heap K)
    (hr : ∀ f ∈ fs, ∀ r ∈ f.rows, RowWF h f.count r ∧ ∀ q ∈ optRefs r, q < h.next) :
    Ext h (dupFracs fs h).2 ∧
      Between h (dupFracs fs h).2 ((dupFracs fs h).1.flatMap fun f => f.rows.flatMap optRefs) ∧
      (∀ h', Ext (dupFracs fs h).2 h' →
        (dupFracs fs h).1.map (fun f => (f.count, f.rows.map fun r => r.map h'.mem))
        = fs.map fun f => (f.count, f.rows.map fun r => r.map h.mem)) := by
  induction fs generalizing h with
  | nil => exact ⟨Ext.refl h, fun r hr => by simp [dupFracs] at hr, fun _ _ => by simp [dupFracs]⟩
  | cons f fs ih =>
    obtain ⟨e0, b0, v0⟩ := dupRows_spec f.count f.rows h (hr f (by simp))
    have hr' : ∀ g ∈ fs, ∀ r ∈ g.rows, RowWF (dupRows f.count f.rows h).2 g.count r ∧
        ∀ x ∈ optRefs r, x < (dupRows f.count f.rows h).2.next := fun g hg r hrg =>
      have := hr g (List.mem_cons_of_mem _ hg) r hrg
      ⟨this.1.ext e0 this.2, fun x hx => (this.2 x hx).trans_le e0.1⟩
    obtain ⟨e, b, v⟩ := ih _ hr'
    refine ⟨e0.trans e, ?_, ?_⟩
    · intro x hx
      simp only [dupFracs, List.flatMap_cons, List.mem_append] at hx
      rcases hx with hx | hx
      · exact b0.mono (le_refl _) e.1 x hx
      · exact b.mono e0.1 (le_refl _) x hx
    · intro h' e'
      simp only [dupFracs, List.map_cons]
      refine congrArg₂ _ (by rw [v0 h' (e.trans e')]) ?_
      rw [v h' e']
      refine List.map_congr_left fun g hg => ?_
      congr 1
      exact List.map_congr_left fun r hrg =>
        optmap_ext e0 (hr g (List.mem_cons_of_mem _ hg) r hrg).2

theorem dupAssims_spec (fs : List AssimObj) (h : Heap K)
    (hr : ∀ f ∈ fs, RowWF h f.count f.row ∧ ∀ q ∈ optRefs f.row, q < h.next) :
    Ext h (dupAssims fs h).2 ∧
      Between h (dupAssims fs h).2 ((dupAssims fs h).1.flatMap fun f => optRefs f.row) ∧
      (∀ h', Ext (dupAssims fs h).2 h' →
        (dupAssims fs h).1.map (fun f => (f.count, f.row.map h'.mem))
        = fs.map fun f => (f.count, f.row.map h.mem)) := by
  induction fs generalizing h with
  | nil =>
    exact ⟨Ext.refl h, fun r hr => by simp [dupAssims] at hr, fun _ _ => by simp [dupAssims]⟩
  | cons f fs ih =>
    obtain ⟨e0, b0, v0⟩ := dupRow_spec f.count f.row h (hr f (by simp)).1
    have hr' : ∀ g ∈ fs, RowWF (dupRow f.count f.row h).2 g.count g.row ∧
        ∀ x ∈ optRefs g.row, x < (dupRow f.count f.row h).2.next := fun g hg =>
      have := hr g (List.mem_cons_of_mem _ hg)
      ⟨this.1.ext e0 this.2, fun x hx => (this.2 x hx).trans_le e0.1⟩
    obtain ⟨e, b, v⟩ := ih _ hr'
    refine ⟨e0.trans e, ?_, ?_⟩
    · intro x hx
      simp only [dupAssims, List.flatMap_cons, List.mem_append] at hx
      rcases hx with hx | hx
      · exact b0.mono (le_refl _) e.1 x hx
      · exact b.mono e0.1 (le_refl _) x hx
    · intro h' e'
      simp only [dupAssims, List.map_cons]
      refine congrArg₂ _ (by rw [v0 h' (e.trans e')]) ?_
      rw [v h' e']
      refine List.map_congr_left fun g hg => ?_
      rw [optmap_ext e0 (hr g (List.mem_cons_of_mem _ hg)).2]

theorem dupFracS_spec (shape : List ℕ) (sw : Sw) (fr : Option (List FracObj)) (h : Heap K)
    (hr : ∀ fs, fr = some fs → ∀ f ∈ fs, ∀ r ∈ f.rows, RowWF h f.count r ∧
      ∀ q ∈ optRefs r, q < h.next)
    (hon : sw.fSol = true ∨ sw.fFlu = true → fr ≠ none) :
    Ext h (dupFracS shape sw fr h).2 ∧
      ((sw.fSol = true ∨ sw.fFlu = true ∨ fr = none) →
        Between h (dupFracS shape sw fr h).2 (fracRefs (dupFracS shape sw fr h).1)) ∧
      (∀ h', Ext (dupFracS shape sw fr h).2 h' →
        (dupFracS shape sw fr h).1.map
          (fun fs => fs.map fun f => (f.count, f.rows.map fun r => r.map h'.mem))
        = fr.map fun fs => fs.map fun f => (f.count, f.rows.map fun r => r.map h.mem)) := by
  unfold dupFracS
  by_cases hs : (sw.fSol || sw.fFlu) = true
  · simp only [hs, if_true]
    have hs' : sw.fSol = true ∨ sw.fFlu = true := by simpa using hs
    obtain ⟨fs, rfl⟩ := Option.ne_none_iff_exists'.mp (hon hs')
    obtain ⟨e, b, v⟩ := dupFracs_spec fs h (hr fs rfl)
    refine ⟨e, fun _ => ?_, fun h' e' => ?_⟩
    · simpa [fracRefs] using b
    · simp [v h' e']
  · simp only [hs, Bool.false_eq_true, if_false]
    refine ⟨Ext.refl h, fun hh => ?_, fun h' e' => ?_⟩
    · have : fr = none := by
        rcases hh with hh | hh | hh
        · simp [hh] at hs
        · simp [hh] at hs
        · exact hh
      subst this
      intro r hr
      simp [fracRefs] at hr
    · cases fr with
      | none => rfl
      | some fs =>
        simp only [Option.map_some, Option.some.injEq]
        refine List.map_congr_left fun f hf => ?_
        congr 1
        exact List.map_congr_left fun r hrr => optmap_ext e' (hr fs rfl f hf r hrr).2

theorem dupFracL_spec [Zero K] (nlc : ℕ) (sw : Sw) (fr : Option Ref) (h : Heap K)
    (hr : ∀ q ∈ optRefs fr, q < h.next) (hon : sw.fLiq = true → fr ≠ none) :
    Ext h (dupFracL nlc sw fr h).2 ∧
      ((sw.fLiq = true ∨ fr = none) →
        Between h (dupFracL nlc sw fr h).2 (optRefs (dupFracL nlc sw fr h).1)) ∧
      (∀ h', Ext (dupFracL nlc sw fr h).2 h' →
        (dupFracL nlc sw fr h).1.map h'.mem = fr.map h.mem) := by
  unfold dupFracL
  by_cases hs : sw.fLiq = true
  · simp only [hs, if_true]
    obtain ⟨q, rfl⟩ := Option.ne_none_iff_exists'.mp (hon hs)
    simp only [Option.map_some, Option.getD_some]
    refine ⟨ext_alloc _ h, fun _ => ?_, fun h' e' => ?_⟩
    · simpa [optRefs] using alloc_between (h.mem q) h
    · rw [e'.2 _ ((alloc_between (h.mem q) h) _ (by simp)).2, alloc_read]
  · simp only [hs, Bool.false_eq_true, if_false]
    refine ⟨Ext.refl h, fun hh => ?_, fun h' e' => optmap_ext e' hr⟩
    rcases hh with hh | rfl
    · simp_all
    · intro r hr
      simp [optRefs] at hr

theorem dupAssim_spec (sw : Sw) (fr : Option (List AssimObj)) (h : Heap K)
    (hr : ∀ fs, fr = some fs → ∀ f ∈ fs, RowWF h f.count f.row ∧ ∀ q ∈ optRefs f.row, q < h.next)
    (hon : sw.assimilate = true → fr ≠ none) :
    Ext h (dupAssim sw fr h).2 ∧
      ((sw.assimilate = true ∨ fr = none) →
        Between h (dupAssim sw fr h).2 (assimRefs (dupAssim sw fr h).1)) ∧
      (∀ h', Ext (dupAssim sw fr h).2 h' →
        (dupAssim sw fr h).1.map (fun fs => fs.map fun f => (f.count, f.row.map h'.mem))
        = fr.map fun fs => fs.map fun f => (f.count, f.row.map h.mem)) := by
  unfold dupAssim
  by_cases hs : sw.assimilate = true
  · simp only [hs, if_true]
    obtain ⟨fs, rfl⟩ := Option.ne_none_iff_exists'.mp (hon hs)
    obtain ⟨e, b, v⟩ := dupAssims_spec fs h (hr fs rfl)
    refine ⟨e, fun _ => ?_, fun h' e' => ?_⟩
    · simpa [assimRefs] using b
    · simp [v h' e']
  · simp only [hs, Bool.false_eq_true, if_false]
    refine ⟨Ext.refl h, fun hh => ?_, fun h' e' => ?_⟩
    · rcases hh with hh | rfl
      · simp_all
      · intro r hr
        simp [assimRefs] at hr
    · cases fr with
      | none => rfl
      | some fs =>
        simp only [Option.map_some, Option.some.injEq]
        refine List.map_congr_left fun f hf => ?_
        rw [optmap_ext e' (hr fs rfl f hf).2]

/-- All parts of a fresh copy together. -/
theorem copyFresh_spec [Zero K] (nlc : ℕ) (o : Obj S R) (h : Heap K) (w : WF o h) :
    Ext h (copyFresh nlc o h).2 ∧
    Between h (copyFresh nlc o h).2 (coreRefs (copyFresh nlc o h).1) ∧
    ((o.sw.fSol = true ∨ o.sw.fFlu = true ∨ o.fracS = none) →
      Between h (copyFresh nlc o h).2 (fracRefs (copyFresh nlc o h).1.fracS)) ∧
    ((o.sw.fLiq = true ∨ o.fracL = none) →
      Between h (copyFresh nlc o h).2 (optRefs (copyFresh nlc o h).1.fracL)) ∧
    ((o.sw.assimilate = true ∨ o.dspAssim = none) →
      Between h (copyFresh nlc o h).2 (assimRefs (copyFresh nlc o h).1.dspAssim)) ∧
    ((o.sw.assimilate = true ∨ o.assim = none) →
      Between h (copyFresh nlc o h).2 (assimRefs (copyFresh nlc o h).1.assim)) ∧
    view (copyFresh nlc o h).2.mem (copyFresh nlc o h).1 =
      { view h.mem o with solids := (view h.mem o).solids.map freshPhase } := by
  have hal : ∀ r ∈ coreRefs o ++ fracRefs o.fracS ++ optRefs o.fracL ++ assimRefs o.dspAssim ++
    assimRefs o.assim, r < h.next := w.alloc
  simp only [List.mem_append] at hal
  have hcore : ∀ r ∈ coreRefs o, r < h.next := fun r hr => hal r (by tauto)
  have hfr : ∀ r ∈ fracRefs o.fracS, r < h.next := fun r hr => hal r (by tauto)
  have hfl : ∀ r ∈ optRefs o.fracL, r < h.next := fun r hr => hal r (by tauto)
  have hda : ∀ r ∈ assimRefs o.dspAssim, r < h.next := fun r hr => hal r (by tauto)
  have has : ∀ r ∈ assimRefs o.assim, r < h.next := fun r hr => hal r (by tauto)
  have hliq : ∀ p ∈ o.liqs, p.1 < h.next ∧ p.2 < h.next := by
    intro p hp
    constructor <;> refine hcore _ ?_ <;> simp only [coreRefs, List.mem_append, List.mem_flatMap] <;>
      exact Or.inl (Or.inr ⟨p, hp, by simp⟩)
  have hsol : ∀ p ∈ o.solids, ∀ r ∈ p.rows ++ p.deltas, r < h.next := by
    intro p hp r hr
    refine hcore _ ?_
    simp only [coreRefs, List.mem_append, List.mem_flatMap]
    exact Or.inr ⟨p, hp, by simpa using hr⟩
  obtain ⟨e1, b1, v1⟩ := allocs_spec [h.mem o.bulk, h.mem o.dspBulk, h.mem o.inc, h.mem o.cyl] h
  set h1 := (allocs [h.mem o.bulk, h.mem o.dspBulk, h.mem o.inc, h.mem o.cyl] h).2 with hh1
  obtain ⟨e2, b2, v2⟩ := dupLiqs_spec o.liqs h1 fun p hp =>
    ⟨(hliq p hp).1.trans_le e1.1, (hliq p hp).2.trans_le e1.1⟩
  set h2 := (dupLiqs o.liqs h1).2 with hh2
  have e12 := e1.trans e2
  obtain ⟨e3, b3, v3⟩ := dupPhases_spec o.solids h2 fun p hp r hr =>
    ⟨(hsol p hp r hr).trans_le e12.1, by rw [e12.2 r (hsol p hp r hr)]; exact w.rows p hp r hr⟩
  set h3 := (dupPhases o.solids h2).2 with hh3
  have e13 := e12.trans e3
  have hfrow : ∀ fs, o.fracS = some fs → ∀ f ∈ fs, ∀ r ∈ f.rows, ∀ q ∈ optRefs r, q < h.next := by
    intro fs hfs f hf r hr q hq
    refine hfr q ?_
    simp only [fracRefs, hfs, Option.getD_some, List.mem_flatMap]
    exact ⟨f, hf, r, hr, hq⟩
  obtain ⟨e4, b4, v4⟩ := dupFracS_spec (o.solids.map fun p => p.rows.length) o.sw o.fracS h3
    (fun fs hfs f hf r hr =>
      ⟨RowWF.ext e13 (w.frac fs hfs f hf r hr) (hfrow fs hfs f hf r hr),
        fun q hq => (hfrow fs hfs f hf r hr q hq).trans_le e13.1⟩) w.fracOn
  set h4 := (dupFracS (o.solids.map fun p => p.rows.length) o.sw o.fracS h3).2 with hh4
  have e14 := e13.trans e4
  obtain ⟨e5, b5, v5⟩ := dupFracL_spec nlc o.sw o.fracL h4
    (fun q hq => (hfl q hq).trans_le e14.1) w.liqOn
  set h5 := (dupFracL nlc o.sw o.fracL h4).2 with hh5
  have e15 := e14.trans e5
  have arow : ∀ (l : Option (List AssimObj)), (∀ r ∈ assimRefs l, r < h.next) → ∀ fs, l = some fs →
      ∀ f ∈ fs, ∀ q ∈ optRefs f.row, q < h.next := by
    intro l hl fs hfs f hf q hq
    refine hl q ?_
    simp only [assimRefs, hfs, Option.getD_some, List.mem_flatMap]
    exact ⟨f, hf, hq⟩
  obtain ⟨e6, b6, v6⟩ := dupAssim_spec o.sw o.dspAssim h5
    (fun fs hfs f hf => ⟨RowWF.ext e15 (w.dsp fs hfs f hf) (arow _ hda fs hfs f hf),
      fun q hq => (arow _ hda fs hfs f hf q hq).trans_le e15.1⟩) (fun hh => (w.asmOn hh).1)
  set h6 := (dupAssim o.sw o.dspAssim h5).2 with hh6
  have e16 := e15.trans e6
  obtain ⟨e7, b7, v7⟩ := dupAssim_spec o.sw o.assim h6
    (fun fs hfs f hf => ⟨RowWF.ext e16 (w.asm fs hfs f hf) (arow _ has fs hfs f hf),
      fun q hq => (arow _ has fs hfs f hf q hq).trans_le e16.1⟩) (fun hh => (w.asmOn hh).2)
  set h7 := (dupAssim o.sw o.assim h6).2 with hh7
  have hfin : (copyFresh nlc o h).2 = h7 := rfl
  have t67 := e6.trans e7
  have t57 := e5.trans t67
  have t47 := e4.trans t57
  have t37 := e3.trans t47
  have t27 := e2.trans t37
  refine ⟨e16.trans e7, ?_, ?_, ?_, ?_, ?_, ?_⟩
  · intro r hr
    rw [hfin]
    simp only [coreRefs, List.mem_append] at hr
    rcases hr with (hr | hr) | hr
    · have hr' : r ∈ (allocs [h.mem o.bulk, h.mem o.dspBulk, h.mem o.inc, h.mem o.cyl] h).1 := by
        simpa [copyFresh, allocs] using hr
      exact b1.mono (le_refl _) t27.1 r hr'
    · exact b2.mono e1.1 t37.1 r hr
    · exact b3.mono e12.1 t47.1 r hr
  · exact fun hh => (b4 hh).mono e13.1 t57.1
  · exact fun hh => (b5 hh).mono e14.1 t67.1
  · exact fun hh => (b6 hh).mono e15.1 e7.1
  · exact fun hh => (b7 hh).mono e16.1 (le_refl _)
  · have w1 := v1 h7 t27
    have w2 := v2 h7 t37
    have w3 := v3 h7 t47
    have w4 := v4 h7 t57
    have w5 := v5 h7 t67
    have w6 := v6 h7 e7
    have w7 := v7 h7 (Ext.refl _)
    have x2 : o.liqs.map (fun p => (h1.mem p.1, h1.mem p.2)) =
        o.liqs.map fun p => (h.mem p.1, h.mem p.2) := List.map_congr_left fun p hp => by
      rw [e1.2 _ (hliq p hp).1, e1.2 _ (hliq p hp).2]
    have x3 : o.solids.map (fun p => freshPhase (p.count, p.rows.map h2.mem, p.deltas.map h2.mem)) =
        o.solids.map fun p => freshPhase (p.count, p.rows.map h.mem, p.deltas.map h.mem) :=
      List.map_congr_left fun p hp => by
        rw [map_ext e12 fun r hr => hsol p hp r (by simp [hr]),
          map_ext e12 fun r hr => hsol p hp r (by simp [hr])]
    have x4 : (o.fracS.map fun fs => fs.map fun f => (f.count, f.rows.map fun r => r.map h3.mem)) =
        o.fracS.map fun fs => fs.map fun f => (f.count, f.rows.map fun r => r.map h.mem) := by
      rcases hc : o.fracS with _ | fs
      · rfl
      · simp only [Option.map_some, Option.some.injEq]
        refine List.map_congr_left fun f hf => ?_
        congr 1
        exact List.map_congr_left fun r hr => optmap_ext e13 (hfrow fs hc f hf r hr)
    have x5 : o.fracL.map h4.mem = o.fracL.map h.mem := optmap_ext e14 hfl
    have xa : ∀ (l : Option (List AssimObj)) (h' : Heap K), Ext h h' → (∀ r ∈ assimRefs l, r < h.next) →
        (l.map fun fs => fs.map fun f => (f.count, f.row.map h'.mem)) =
        l.map fun fs => fs.map fun f => (f.count, f.row.map h.mem) := by
      intro l h' e' hl
      rcases hc : l with _ | fs
      · rfl
      · simp only [Option.map_some, Option.some.injEq]
        refine List.map_congr_left fun f hf => ?_
        rw [optmap_ext e' (arow l hl fs hc f hf)]
    have x6 := xa o.dspAssim h5 e15 hda
    have x7 := xa o.assim h6 e16 has
    rw [hfin]
    simp only [allocs, List.map_cons, List.map_nil, List.cons.injEq, and_true] at w1
    obtain ⟨w1a, w1b, w1c, w1d⟩ := w1
    simp only [view, copyFresh, Img.mk.injEq, List.map_map]
    refine ⟨?_, ?_, ?_, ?_, ?_, ?_, ?_, ?_, ?_, ?_, by trivial, by trivial, by trivial⟩
    · exact w1a
    · exact w1b
    · exact w1c
    · exact w1d
    · rw [← x2]; exact w2
    · exact (w3.trans x3)
    · exact w4.trans x4
    · exact w5.trans x5
    · exact w6.trans x6
    · exact w7.trans x7

/-! ### The branch that overwrites an existing structure -/

/-- silmin_support.c 564-588 for one row of a phase: the destination block is resized to
`max nOld 1` when the counts differ, then the first `nOld` entries are overwritten. -/
def putRow (nOld nNew : ℕ) (src dst : List K) : List K :=
  src.take nOld ++ (if nOld = nNew then dst else dst.take (max nOld 1)).drop nOld

/-- silmin_support.c 564-590 for a phase. -/
def putPhase (src dst : ℕ × List (List K) × List (List K)) : ℕ × List (List K) × List (List K) :=
  (src.1, List.zipWith (putRow src.1 dst.1) src.2.1 dst.2.1,
    List.zipWith (putRow src.1 dst.1) src.2.2 dst.2.2)

/-- silmin_support.c 541-562: the first liquid is always copied; the others only when the numbers of
liquids differ. (`nLiquidCoexist` is the length of the list.) -/
def putLiqs (src dst : List (List K × List K)) : List (List K × List K) :=
  if dst.length ≠ src.length then src
  else match src, dst with
    | s :: _, _ :: ds => s :: ds
    | _, ds => ds

/-- silmin_support.c 619-639 for one row of a reservoir phase. -/
def putFracRow (nOld nNew : ℕ) (src dst : Option (List K)) : Option (List K) :=
  if nOld = nNew ∧ nOld = 0 then dst
  else some (putRow nOld nNew (src.getD []) (dst.getD []))

/-- silmin_support.c 625-638 for one phase. -/
def putFrac (src dst : ℕ × List (Option (List K))) : ℕ × List (Option (List K)) :=
  (src.1, List.zipWith (putFracRow src.1 dst.1) src.2 dst.2)

/-- silmin_support.c 619-644. -/
def putFracS (shape : List ℕ) (ssw dsw : Sw) (src dst : Option (List (ℕ × List (Option (List K))))) :
    Option (List (ℕ × List (Option (List K)))) :=
  if ssw.fSol || ssw.fFlu then
    let d := dst.getD (shape.map fun n => (0, List.replicate n none))
    match src with
    | some s => some (List.zipWith putFrac s d)
    | none => some d
  else if (dsw.fSol || dsw.fFlu) && dst.isSome then none
  else dst

/-- silmin_support.c 648-654; note that the switches tested at 651 have just been overwritten with
the source's (645-646). -/
def putFracL [Zero K] (nlc : ℕ) (ssw : Sw) (src dst : Option (List K)) : Option (List K) :=
  if ssw.fLiq then
    match src with
    | some s => some s
    | none => some (dst.getD (List.replicate nlc 0))
  else if (ssw.fSol || ssw.fFlu) && dst.isSome then none
  else dst

/-- silmin_support.c 669-709: `lim` is the number of entries visited by the copying loop 692
(`nc+npc`, for both lists). New blocks are allocated by `calloc`, so that an entry that is not
visited has count 0 and no row if the source's count is 0, otherwise an unfilled row. -/
def putAssim (lim : ℕ) (ssw dsw : Sw) (src dst : Option (List (ℕ × Option (List K)))) :
    Option (List (ℕ × Option (List K))) :=
  if ssw.assimilate then
    some ((src.getD []).mapIdx fun i x => if i < lim then x else (0, none))
  else if dsw.assimilate then none
  else dst

/-- silmin_support.c 536-722. -/
def copyInto [Zero K] (nlc nc npc : ℕ) (src dst : Img K S R) : Img K S R where
  bulk := src.bulk
  dspBulk := src.dspBulk
  inc := src.inc
  cyl := src.cyl
  liqs := putLiqs src.liqs dst.liqs
  solids := List.zipWith putPhase src.solids dst.solids
  fracS := putFracS (src.solids.map fun p => p.2.1.length) src.sw dst.sw src.fracS dst.fracS
  fracL := putFracL nlc src.sw src.fracL dst.fracL
  dspAssim := putAssim (nc + npc) src.sw dst.sw src.dspAssim dst.dspAssim
  assim := putAssim (nc + npc) src.sw dst.sw src.assim dst.assim
  sw := src.sw
  sc := src.sc
  rest := dst.rest

/-! ### C13 -/

/-- Entry `j` of every row: one coexisting copy of a phase. -/
def copyAt (x : ℕ × List (List K) × List (List K)) (j : ℕ) : List (Option K) × List (Option K) :=
  (x.2.1.map fun r => r[j]?, x.2.2.map fun r => r[j]?)

/-- Two phases present in the same number of copies with the same compositions and corrections. -/
def SamePhase (x y : ℕ × List (List K) × List (List K)) : Prop :=
  x.1 = y.1 ∧ ∀ j < x.1, copyAt x j = copyAt y j

/-- The images obey the allocation discipline (see `WF`). -/
def PhaseWF (x : ℕ × List (List K) × List (List K)) : Prop :=
  ∀ r ∈ x.2.1 ++ x.2.2, r.length = max x.1 1

/-- Copying into a new structure: bulk composition, liquids, solids that are present, switches and
all other data of the copy equal the original's; the original is not altered. Phases that are absent
are reset to zero in the copy. -/
theorem C13_fresh_equal [Zero K] (nlc : ℕ) (o : Obj S R) (h : Heap K) (w : WF o h) :
    view (copyFresh nlc o h).2.mem (copyFresh nlc o h).1 =
      { view h.mem o with solids := (view h.mem o).solids.map freshPhase } ∧
    view (copyFresh nlc o h).2.mem o = view h.mem o := by
  have hs := copyFresh_spec nlc o h w
  refine ⟨hs.2.2.2.2.2.2, ?_⟩
  have e := hs.1
  have hal : ∀ r ∈ coreRefs o ++ fracRefs o.fracS ++ optRefs o.fracL ++ assimRefs o.dspAssim ++
    assimRefs o.assim, r < h.next := w.alloc
  simp only [List.mem_append] at hal
  have hcore : ∀ r ∈ coreRefs o, (copyFresh nlc o h).2.mem r = h.mem r :=
    fun r hr => e.2 r (hal r (by tauto))
  simp only [view, Img.mk.injEq]
  refine ⟨hcore _ (by simp [coreRefs]), hcore _ (by simp [coreRefs]), hcore _ (by simp [coreRefs]),
    hcore _ (by simp [coreRefs]), ?_, ?_, ?_, ?_, ?_, ?_, by trivial, by trivial, by trivial⟩
  · refine List.map_congr_left fun p hp => ?_
    rw [hcore, hcore] <;> simp only [coreRefs, List.mem_append, List.mem_flatMap] <;>
      exact Or.inl (Or.inr ⟨p, hp, by simp⟩)
  · refine List.map_congr_left fun p hp => ?_
    have : ∀ r ∈ p.rows ++ p.deltas, (copyFresh nlc o h).2.mem r = h.mem r := by
      intro r hr
      refine hcore r ?_
      simp only [coreRefs, List.mem_append, List.mem_flatMap]
      exact Or.inr ⟨p, hp, by simpa using hr⟩
    rw [List.map_congr_left fun r hr => this r (by simp [hr]),
      List.map_congr_left fun r hr => this r (by simp [hr])]
  · rcases hc : o.fracS with _ | fs
    · rfl
    · simp only [Option.map_some, Option.some.injEq]
      refine List.map_congr_left fun f hf => ?_
      congr 1
      refine List.map_congr_left fun r hr => optmap_ext e fun q hq => hal q ?_
      refine Or.inl (Or.inl (Or.inl (Or.inr ?_)))
      simp only [fracRefs, hc, Option.getD_some, List.mem_flatMap]
      exact ⟨f, hf, r, hr, hq⟩
  · exact optmap_ext e fun q hq => hal q (by tauto)
  · rcases hc : o.dspAssim with _ | fs
    · rfl
    · simp only [Option.map_some, Option.some.injEq]
      refine List.map_congr_left fun f hf => ?_
      rw [optmap_ext e fun q hq => hal q ?_]
      refine Or.inl (Or.inr ?_)
      simp only [assimRefs, hc, Option.getD_some, List.mem_flatMap]
      exact ⟨f, hf, hq⟩
  · rcases hc : o.assim with _ | fs
    · rfl
    · simp only [Option.map_some, Option.some.injEq]
      refine List.map_congr_left fun f hf => ?_
      rw [optmap_ext e fun q hq => hal q ?_]
      refine Or.inr ?_
      simp only [assimRefs, hc, Option.getD_some, List.mem_flatMap]
      exact ⟨f, hf, hq⟩

/-- Writing to a block. -/
def write (h : Heap K) (r : Ref) (xs : List K) : Heap K := ⟨Function.update h.mem r xs, h.next⟩

/-- Copying into a new structure gives an independent copy: if every optional array is either in use
(its switch is on) or absent, no block is shared, so whatever is later written through the copy,
the original reads the same as before. -/
theorem C13_fresh_independent [Zero K] (nlc : ℕ) (o : Obj S R) (h : Heap K) (w : WF o h)
    (hS : o.sw.fSol = true ∨ o.sw.fFlu = true ∨ o.fracS = none)
    (hL : o.sw.fLiq = true ∨ o.fracL = none)
    (hD : o.sw.assimilate = true ∨ o.dspAssim = none)
    (hA : o.sw.assimilate = true ∨ o.assim = none)
    (r : Ref) (hr : r ∈ allRefs (copyFresh nlc o h).1) :
    r ∉ allRefs o ∧
    ∀ xs q, q ∈ allRefs o → (write (copyFresh nlc o h).2 r xs).mem q = h.mem q := by
  obtain ⟨e, b1, b2, b3, b4, b5, -⟩ := copyFresh_spec nlc o h w
  have hge : h.next ≤ r := by
    simp only [allRefs, List.mem_append] at hr
    rcases hr with (((hr | hr) | hr) | hr) | hr
    · exact (b1 r hr).1
    · exact (b2 hS r hr).1
    · exact (b3 hL r hr).1
    · exact (b4 hD r hr).1
    · exact (b5 hA r hr).1
  refine ⟨fun hm => absurd (w.alloc r hm) (Nat.not_lt.mpr hge), fun xs q hq => ?_⟩
  have := w.alloc q hq
  have hne : q ≠ r := Nat.ne_of_lt (lt_of_lt_of_le this hge)
  simp only [write, Function.update_of_ne hne]
  exact e.2 q this

/-- If a reservoir exists while its switch is off (as when the engine saves its best state with the
switches temporarily cleared, silmin.c 1128-1140), the copy shares the reservoir's blocks with the
original. -/
theorem C13_fresh_shared [Zero K] (nlc : ℕ) (o : Obj S R) (h : Heap K)
    (hsol : o.sw.fSol = false) (hflu : o.sw.fFlu = false) :
    (copyFresh nlc o h).1.fracS = o.fracS := by
  simp [copyFresh, dupFracS, hsol, hflu]

/-- Copying into an existing structure reproduces the bulk composition, the switches, all scalars,
the first liquid, and every copy of every solid that is present. -/
theorem C13_into_copies [Zero K] (nlc nc npc : ℕ) (src dst : Img K S R)
    (hlen : src.solids.length = dst.solids.length)
    (hsh : ∀ i (hi : i < src.solids.length) (hi' : i < dst.solids.length),
      src.solids[i].2.1.length = dst.solids[i].2.1.length ∧
      src.solids[i].2.2.length = dst.solids[i].2.2.length)
    (hs : ∀ x ∈ src.solids, PhaseWF x) :
    let c := copyInto nlc nc npc src dst
    c.bulk = src.bulk ∧ c.dspBulk = src.dspBulk ∧ c.inc = src.inc ∧ c.cyl = src.cyl ∧
    c.sw = src.sw ∧ c.sc = src.sc ∧ c.liqs.length = src.liqs.length ∧ c.liqs[0]? = src.liqs[0]? ∧
    c.solids.length = src.solids.length ∧
    ∀ i (hi : i < src.solids.length) (hi' : i < c.solids.length),
      SamePhase c.solids[i] src.solids[i] := by
  refine ⟨rfl, rfl, rfl, rfl, rfl, rfl, ?_, ?_, ?_, ?_⟩
  · simp only [copyInto, putLiqs]
    split
    · rfl
    · rename_i hl
      rw [ne_eq, not_not] at hl
      rcases hs' : src.liqs with _ | ⟨s, ss⟩ <;> rcases hd : dst.liqs with _ | ⟨d, ds⟩ <;> simp_all
  · simp only [copyInto, putLiqs]
    split
    · rfl
    · rename_i hl
      rw [ne_eq, not_not] at hl
      rcases hs' : src.liqs with _ | ⟨s, ss⟩ <;> rcases hd : dst.liqs with _ | ⟨d, ds⟩ <;> simp_all
  · simp [copyInto, hlen]
  · intro i hi hi'
    have hid : i < dst.solids.length := hlen ▸ hi
    have key : ∀ (rs ds : List (List K)) (n m j : ℕ), rs.length = ds.length → j < n →
        (∀ r ∈ rs, r.length = max n 1) →
        (List.zipWith (putRow n m) rs ds).map (fun r => r[j]?) = rs.map fun r => r[j]? := by
      intro rs
      induction rs with
      | nil => intro ds n m j _ _ _; simp
      | cons r rs ih =>
        intro ds n m j hl hj hr
        rcases ds with _ | ⟨d, ds⟩
        · simp at hl
        · simp only [List.zipWith_cons_cons, List.map_cons]
          refine congrArg₂ _ ?_ (ih ds n m j (by simpa using hl) hj fun r hr' => hr r (by simp [hr']))
          have hrl := hr r (by simp)
          unfold putRow
          rw [List.getElem?_append_left (by simp; omega), List.getElem?_take_of_lt hj]
    refine ⟨by simp [copyInto, putPhase], fun j hj => ?_⟩
    have hj' : j < src.solids[i].1 := by simpa [copyInto, putPhase] using hj
    have hw := hs _ (List.getElem_mem hi)
    simp only [copyAt, copyInto, List.getElem_zipWith, putPhase, Prod.mk.injEq]
    exact ⟨key _ _ _ _ _ (hsh i hi hid).1 hj' fun r hr => hw r (by simp [hr]),
      key _ _ _ _ _ (hsh i hi hid).2 hj' fun r hr => hw r (by simp [hr])⟩

/-- All liquids are reproduced when the two structures hold different numbers of liquids or at most
one. -/
theorem C13_into_liquids_ok [Zero K] (nlc nc npc : ℕ) (src dst : Img K S R)
    (h : src.liqs.length ≠ dst.liqs.length ∨ src.liqs.length ≤ 1) :
    (copyInto nlc nc npc src dst).liqs = src.liqs := by
  simp only [copyInto, putLiqs]
  split
  · rfl
  · rename_i hl
    rw [ne_eq, not_not] at hl
    rcases hs' : src.liqs with _ | ⟨s, _ | ⟨t, ss⟩⟩ <;> rcases hd : dst.liqs with _ | ⟨d, ds⟩ <;>
      simp_all

/-- With equal numbers of liquids, the second and later ones keep the destination's old composition:
the restored state is wrong whenever the two differ there. -/
theorem C13_into_liquids_stale [Zero K] (nlc nc npc : ℕ) (src dst : Img K S R)
    (h : src.liqs.length = dst.liqs.length) (i : ℕ) (hi : 1 ≤ i) :
    (copyInto nlc nc npc src dst).liqs[i]? = dst.liqs[i]? := by
  simp only [copyInto, putLiqs, h, ne_eq, not_true_eq_false, if_false]
  obtain ⟨k, rfl⟩ : ∃ k, i = k + 1 := ⟨i - 1, by omega⟩
  rcases hs : src.liqs with _ | ⟨s, ss⟩ <;> rcases hd : dst.liqs with _ | ⟨d, ds⟩ <;> simp

/-- A phase that is absent in the source but was present in the destination is counted as absent
after the copy, but keeps a stale first entry in its rows (its old amount), whereas copying into a
new structure clears it. -/
theorem C13_into_absent_stale [Zero K] (nlc nc npc : ℕ) (src dst : Img K S R) (i : ℕ)
    (hi : i < src.solids.length) (hi' : i < dst.solids.length)
    (habs : src.solids[i].1 = 0) (hpre : 0 < dst.solids[i].1)
    (hsh : src.solids[i].2.1.length = dst.solids[i].2.1.length)
    (hs : PhaseWF dst.solids[i]) (hc : i < (copyInto nlc nc npc src dst).solids.length) :
    (copyInto nlc nc npc src dst).solids[i].1 = 0 ∧
    copyAt (copyInto nlc nc npc src dst).solids[i] 0 =
      ((copyAt dst.solids[i] 0).1, (copyAt (copyInto nlc nc npc src dst).solids[i] 0).2) := by
  refine ⟨by simp [copyInto, putPhase, habs], ?_⟩
  have key : ∀ (rs ds : List (List K)) (m : ℕ), rs.length = ds.length → 0 < m →
      (∀ d ∈ ds, d.length = max m 1) →
      (List.zipWith (putRow 0 m) rs ds).map (fun r => r[0]?) = ds.map fun r => r[0]? := by
    intro rs
    induction rs with
    | nil => intro ds m hl _ _; rcases ds with _ | ⟨d, ds⟩ <;> simp_all
    | cons r rs ih =>
      intro ds m hl hm hd
      rcases ds with _ | ⟨d, ds⟩
      · simp at hl
      · simp only [List.zipWith_cons_cons, List.map_cons]
        refine congrArg₂ _ ?_ (ih ds m (by simpa using hl) hm fun r hr' => hd r (by simp [hr']))
        have hdl := hd d (by simp)
        unfold putRow
        have : (0 : ℕ) ≠ m := by omega
        simp [this, List.getElem?_take]
  simp only [copyAt, copyInto, List.getElem_zipWith, putPhase, habs, Prod.mk.injEq, and_true]
  exact key _ _ _ hsh hpre fun d hd => hs d (by simp [hd])

/-- Restoring a saved state while all fractionation switches are cleared in both (silmin.c
1166-1182) leaves the fractionated reservoirs of the running state as they are; whatever the switches, the fields
the code does not copy (`ySol`, `yLiq`, `ready_to_output`) keep the running state's values. -/
theorem C13_restore_keeps_reservoirs [Zero K] (nlc nc npc : ℕ) (src dst : Img K S R) :
    ((src.sw.fSol = false ∧ src.sw.fFlu = false ∧ src.sw.fLiq = false) →
      (dst.sw.fSol = false ∧ dst.sw.fFlu = false) →
      (copyInto nlc nc npc src dst).fracS = dst.fracS ∧
      (copyInto nlc nc npc src dst).fracL = dst.fracL) ∧
    (copyInto nlc nc npc src dst).rest = dst.rest := by
  refine ⟨fun hs hd => ?_, rfl⟩
  simp [copyInto, putFracS, putFracL, hs, hd]

/-- A state that fractionates only solids, copied over a state holding fractionated liquid, deletes
that liquid; a state that fractionates nothing leaves it. -/
theorem C13_into_fractionated_liquid [Zero K] (nlc nc npc : ℕ) (src dst : Img K S R) (l : List K)
    (hs : src.sw.fLiq = false) (hl : dst.fracL = some l) :
    (copyInto nlc nc npc src dst).fracL = none ↔ src.sw.fSol = true ∨ src.sw.fFlu = true := by
  simp only [copyInto, putFracL, hs, hl]
  cases src.sw.fSol <;> cases src.sw.fFlu <;> simp

/-- In the overwriting branch the loop that copies assimilants stops at `nc + npc`; when the liquid
has more components than there are oxides, the assimilant's last liquid components are lost. -/
theorem C13_into_assim_truncated [Zero K] (nlc nc npc : ℕ) (src dst : Img K S R) (hon : src.sw.assimilate = true) :
    (∀ l, src.assim = some l → ∀ i (hi : i < l.length),
      (i < nc + npc → (copyInto nlc nc npc src dst).assim.bind (fun c => c[i]?) = some l[i]) ∧
      (nc + npc ≤ i → (copyInto nlc nc npc src dst).assim.bind (fun c => c[i]?) = some (0, none))) ∧
    (∀ l, src.dspAssim = some l → ∀ i (hi : i < l.length),
      (i < nc + npc → (copyInto nlc nc npc src dst).dspAssim.bind (fun c => c[i]?) = some l[i]) ∧
      (nc + npc ≤ i → (copyInto nlc nc npc src dst).dspAssim.bind (fun c => c[i]?) = some (0, none))) := by
  constructor <;> intro l h i hi <;>
  simp only [copyInto, putAssim, hon, if_true, h, Option.getD_some, Option.bind_some,
    List.getElem?_mapIdx, List.getElem?_eq_getElem hi, Option.map_some] <;>
  exact ⟨fun hh => by simp [hh], fun hh => by simp [Nat.not_lt.mpr hh]⟩

/-! ### A concrete state -/

/-- Two liquids of two components; olivine present in two copies; spinel absent; a reservoir. -/
def demoHeap : Heap ℚ where
  mem := fun r => [[1, 2], [3, 4], [1, 1, 1], [0, 0], [1, 1], [0, 0], [5, 6], [0, 0],
    [7, 8], [3, 4], [4, 4], [0, 0], [0, 0], [0, 0], [0], [0], [9], [2], [7]].getD r []
  next := 19

/-- The structure over `demoHeap`. -/
def demo : Obj Unit Unit where
  bulk := 0
  dspBulk := 1
  inc := 2
  cyl := 3
  liqs := [(4, 5), (6, 7)]
  solids := [⟨2, [8, 9, 10], [11, 12, 13]⟩, ⟨0, [14], [15]⟩]
  fracS := some [⟨1, [some 16, some 17, some 18]⟩, ⟨0, [none]⟩]
  fracL := none
  dspAssim := none
  assim := none
  sw := ⟨true, false, false, false⟩
  sc := ()
  rest := ()

/-- The hypotheses of `C13_fresh_equal` and `C13_fresh_independent` are met by it. -/
theorem demo_wf : WF demo demoHeap where
  alloc := by decide
  rows := by decide
  frac := by
    intro fs hfs
    cases hfs
    simp [demoHeap]
  dsp := by intro fs h; cases h
  asm := by intro fs h; cases h
  fracOn := by simp [demo]
  liqOn := by simp [demo]
  asmOn := by simp [demo]

example : (view (copyFresh 2 demo demoHeap).2.mem (copyFresh 2 demo demoHeap).1).liqs =
    [([1, 1], [0, 0]), ([5, 6], [0, 0])] := by decide +kernel

/-- Overwriting a two-liquid state with another: the second liquid is the old one, and a phase that
disappeared keeps its amount. -/
example :
    let src : Img ℚ Unit Unit := ⟨[1], [1], [], [], [([1], [0]), ([2], [0])], [(0, [[0]], [[0]])],
      none, none, none, none, ⟨false, false, false, false⟩, (), ()⟩
    let dst : Img ℚ Unit Unit := ⟨[9], [9], [], [], [([8], [0]), ([7], [0])], [(2, [[5, 6]], [[0, 0]])],
      none, none, none, none, ⟨false, false, false, false⟩, (), ()⟩
    (copyInto 1 1 1 src dst).liqs = [([1], [0]), ([7], [0])] ∧
    (copyInto 1 1 1 src dst).solids = [(0, [[5]], [[0]])] := by decide +kernel

end Magma.Engine.Copy
