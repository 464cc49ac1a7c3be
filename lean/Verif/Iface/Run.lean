import Mathlib.Data.List.Induction
import Mathlib.Data.List.Range
import Mathlib.Data.List.Count
import Mathlib.Algebra.BigOperators.Group.List.Basic
import Mathlib.Tactic.Common

/-!
The run loop of the user interface, `Equilibrate` (/repo/src/melts_interface.cpp 795-844) with `StopEquilibration`
(788-793), which the GUI calls from another thread (/repo/src/imgui_opengl_melts_version.cpp 1163).

The engine `silmin` is arbitrary: for each step of the run it is given by what its successive calls reported. A stop
request may arrive during any call of the engine, between the last call and the change of T, P, ..., or after that change.
`calc_index` only tells the engine whether it is the first call and is left out.
-/

namespace Magma.Iface.Run

/-- One call of `silmin`: `ready_to_output`, and whether a stop request arrived during the call. -/
structure EngineCall where
  ready : Bool
  stop : Bool := false
deriving DecidableEq

/-- One iteration of the `for` loop: the calls of the engine up to the one that ended, the status, stop requests. -/
structure Step where
  calls : List EngineCall
  /-- `meltsStatus.status == SILMIN_SUCCESS` -/
  ok : Bool := true
  stopBefore : Bool := false
  stopAfter : Bool := false

/-- A recorded step: its index and how many times T, P, ... had been incremented. -/
structure Rec where
  index : ℕ
  incs : ℕ
deriving DecidableEq

/-- `m_Steps`, `m_LastIndex`, number of calls of `SetIncrements` so far, `m_Failure`. -/
structure St where
  records : List Rec := []
  last : ℕ := 0
  incs : ℕ := 0
  failure : Bool := false
deriving DecidableEq

/-- melts_interface.cpp 818-821. -/
def save (s : St) : St := { s with records := s.records ++ [⟨s.last, s.incs⟩], last := s.last + 1 }

/-- The `while` loop, melts_interface.cpp 813-827, with `m_CalcStepsRemaining`. -/
def inner (total : ℕ) : List EngineCall → ℕ → St → ℕ × St
  | [], rem, s => (rem, s)
  | c :: cs, rem, s =>
    let rem := if c.stop then 0 else rem
    let s := if c.ready && (s.last == 0 || rem != total) then save s else s
    if rem = 0 then (rem, s) else inner total cs rem s

/-- The `for` loop, melts_interface.cpp 811-839; the flag is the returned value. -/
def outer (total : ℕ) (steps : ℕ → Step) : ℕ → ℕ → St → St × Bool
  | 0, _, s => (s, true)
  | rem + 1, k, s =>
    let r := inner total (steps k).calls (rem + 1) s
    let s := r.2
    if (steps k).ok then
      let left := if (steps k).stopBefore then 0 else r.1
      let s := if left > 1 then { s with incs := s.incs + 1 } else s
      if left = 0 || (steps k).stopAfter then (s, true) else outer total steps rem (k + 1) s
    else ({ s with failure := true }, false)

/-- `SetCalcSteps(n)` followed by `Equilibrate`, melts_interface.cpp 314-318, 795-844. -/
def equilibrate (n : ℕ) (steps : ℕ → Step) (s : St) : St × Bool := outer (n + 1) steps (n + 1) 0 s

/-! ### Specification -/

/-- A step that completes: no stop request, success, and the engine announced its output exactly once. -/
def Clean (t : Step) : Prop :=
  t.ok = true ∧ t.stopBefore = false ∧ t.stopAfter = false ∧ (∀ c ∈ t.calls, c.stop = false) ∧
    (t.calls.filter EngineCall.ready).length = 1

/-- The recorded history: one record per state of the system, numbered and in order, from the initial one on. -/
def Ledger (s : St) : Prop := s.records = (List.range s.last).map (fun i => ⟨i, i⟩) ∧ s.incs = s.last - 1

/-! ### Lemmas -/

theorem inner_none {total rem : ℕ} (hr : rem ≠ 0) : ∀ (cs : List EngineCall) (s : St), (∀ c ∈ cs, c.stop = false) →
    (∀ c ∈ cs, c.ready = false) → inner total cs rem s = (rem, s)
  | [], _, _, _ => rfl
  | c :: cs, s, h1, h2 => by
    unfold inner
    simp only [h1 c (by simp), h2 c (by simp), Bool.false_eq_true, if_false, Bool.false_and, hr]
    exact inner_none hr cs s (fun x hx => h1 x (by simp [hx])) fun x hx => h2 x (by simp [hx])

theorem inner_once {total rem : ℕ} (hr : rem ≠ 0) : ∀ (cs : List EngineCall) (s : St), (∀ c ∈ cs, c.stop = false) →
    (cs.filter EngineCall.ready).length = 1 →
    inner total cs rem s = (rem, if s.last = 0 ∨ rem ≠ total then save s else s)
  | [], _, _, h => by simp at h
  | c :: cs, s, h1, h2 => by
    have hs := h1 c (by simp)
    have h1' : ∀ x ∈ cs, x.stop = false := fun x hx => h1 x (by simp [hx])
    unfold inner
    by_cases hc : c.ready = true
    · simp only [List.filter_cons, hc, if_true, List.length_cons] at h2
      have h3 : ∀ x ∈ cs, x.ready = false := by
        have : (cs.filter EngineCall.ready) = [] := List.length_eq_zero_iff.mp (by omega)
        intro x hx
        have := (List.filter_eq_nil_iff.mp this) x hx
        simpa using this
      simp only [hs, hc, Bool.false_eq_true, if_false, hr, Bool.true_and, Bool.or_eq_true, beq_iff_eq, bne_iff_ne]
      rw [inner_none hr cs _ h1' h3]
    · have hc' : c.ready = false := by simpa using hc
      simp only [List.filter_cons, hc', Bool.false_eq_true, if_false] at h2
      simp only [hs, hc', Bool.false_eq_true, if_false, Bool.false_and, hr]
      exact inner_once hr cs s h1' h2

/-- `n` records of consecutive states. -/
def addRecords (s : St) (n : ℕ) : List Rec := s.records ++ (List.range n).map fun i => ⟨s.last + i, s.incs + i⟩

theorem outer_clean {total : ℕ} {steps : ℕ → Step} (hc : ∀ k, Clean (steps k)) : ∀ (rem k : ℕ) (s : St), rem < total →
    outer total steps rem k s =
      ({ s with records := addRecords s rem, last := s.last + rem, incs := s.incs + (rem - 1) }, true)
  | 0, k, s, _ => by simp [outer, addRecords]
  | rem + 1, k, s, h => by
    obtain ⟨h1, h2, h3, h4, h5⟩ := hc k
    unfold outer
    rw [inner_once (by omega) _ _ h4 h5]
    have hne : rem + 1 ≠ total := by omega
    simp only [h1, h2, h3, if_true, Bool.false_eq_true, if_false, hne, ne_eq, not_false_eq_true, or_true,
      Nat.succ_ne_zero, decide_false, Bool.or_self]
    rw [outer_clean hc rem (k + 1) _ (by omega)]
    cases rem with
    | zero => simp [save, addRecords]
    | succ m =>
      simp only [gt_iff_lt, Nat.lt_add_left_iff_pos, Nat.zero_lt_succ, if_true, Nat.add_sub_cancel]
      refine Prod.ext ?_ rfl
      simp only [save, addRecords, St.mk.injEq, List.append_assoc, List.append_cancel_left_eq]
      refine ⟨?_, by omega, by omega, trivial⟩
      rw [List.range_succ_eq_map (n := m + 1)]
      simp only [List.map_cons, List.map_map, List.singleton_append, Nat.add_zero]
      congr 1
      apply List.map_congr_left
      intro i _
      simp only [Function.comp, Rec.mk.injEq]
      omega

/-! ### C34 -/

/-- A completed run of `n` steps from the initial state records `n + 1` steps; a completed continuation records exactly
`n` more; in both cases every state of the system is recorded exactly once, numbered and in order. -/
theorem C34_run (n : ℕ) (steps : ℕ → Step) (hc : ∀ k, Clean (steps k)) (s : St) (hl : Ledger s) :
    (equilibrate n steps s).2 = true ∧ Ledger (equilibrate n steps s).1 ∧
      (equilibrate n steps s).1.last = (if s.last = 0 then n + 1 else s.last + n) := by
  obtain ⟨h1, h2, h3, h4, h5⟩ := hc 0
  obtain ⟨hrec, hinc⟩ := hl
  unfold equilibrate outer
  rw [inner_once (by omega) _ _ h4 h5]
  simp only [h1, h2, h3, if_true, Bool.false_eq_true, if_false, ne_eq, not_true_eq_false, or_false,
    Nat.succ_ne_zero, decide_false, Bool.or_self]
  rw [outer_clean hc n (0 + 1) _ (by omega)]
  refine ⟨rfl, ?_, ?_⟩
  · obtain ⟨rec, last, incs, fl⟩ := s
    simp only at hrec hinc
    subst hrec hinc
    by_cases h0 : last = 0
    · subst h0
      unfold Ledger
      simp only [if_true, save, addRecords, List.range_zero, List.map_nil, List.nil_append, Nat.zero_add, Nat.sub_self]
      cases n with
      | zero => simp
      | succ m =>
        simp only [gt_iff_lt, Nat.lt_add_left_iff_pos, Nat.zero_lt_succ, if_true]
        refine ⟨?_, by omega⟩
        rw [Nat.add_comm 1 (m + 1), List.range_succ_eq_map (n := m + 1)]
        simp only [List.map_cons, List.map_map, List.singleton_append]
        congr 1
        apply List.map_congr_left
        intro i _
        simp only [Function.comp, Rec.mk.injEq]
        omega
    · unfold Ledger
      simp only [h0, if_false, addRecords]
      cases n with
      | zero => simp
      | succ m =>
        simp only [gt_iff_lt, Nat.lt_add_left_iff_pos, Nat.zero_lt_succ, if_true]
        refine ⟨?_, by omega⟩
        rw [List.range_add (n := last) (m := m + 1), List.map_append, List.map_map]
        congr 1
        apply List.map_congr_left
        intro i _
        simp only [Function.comp, Rec.mk.injEq]
        exact ⟨trivial, by omega⟩
  · by_cases h0 : s.last = 0
    · simp only [h0, if_true, save]; split_ifs <;> simp <;> omega
    · simp only [h0, if_false]; split_ifs <;> simp

/-- Any sequence of completed runs leaves one record per state: records 0, 1, ..., with the total number of increments
equal to the number of steps requested. -/
theorem C34_history (runs : List (ℕ × (ℕ → Step))) (hc : ∀ r ∈ runs, ∀ k, Clean (r.2 k)) (h0 : runs ≠ []) :
    (runs.foldl (fun s r => (equilibrate r.1 r.2 s).1) {}).records =
      (List.range ((runs.map Prod.fst).sum + 1)).map fun i => ⟨i, i⟩ := by
  have key : ∀ (runs : List (ℕ × (ℕ → Step))), (∀ r ∈ runs, ∀ k, Clean (r.2 k)) → 
      Ledger (runs.foldl (fun s r => (equilibrate r.1 r.2 s).1) {}) ∧
      (runs.foldl (fun s r => (equilibrate r.1 r.2 s).1) {}).last =
        if runs = [] then 0 else (runs.map Prod.fst).sum + 1 := by
    intro runs
    induction runs using List.reverseRecOn with
    | nil => intro _; exact ⟨⟨rfl, rfl⟩, rfl⟩
    | append_singleton l r ih =>
      intro hc
      obtain ⟨h1, h2⟩ := ih fun x hx => hc x (List.mem_append_left _ hx)
      rw [List.foldl_append]
      obtain ⟨_, h3, h4⟩ := C34_run r.1 r.2 (hc r (by simp)) _ h1
      refine ⟨h3, ?_⟩
      simp only [List.foldl_cons, List.foldl_nil]
      rw [h4, h2]
      by_cases hl : l = []
      · subst hl; simp
      · simp [hl]; omega
  obtain ⟨h1, h2⟩ := key runs hc
  rw [h1.1, h2, if_neg h0]

theorem inner_mono (total : ℕ) : ∀ (cs : List EngineCall) (rem : ℕ) (s : St), s.last = s.records.length →
    (∃ new, (inner total cs rem s).2.records = s.records ++ new ∧ new.length ≤ (cs.filter EngineCall.ready).length ∧
      ∀ i (h : i < new.length), new[i].index = s.last + i ∧ new[i].incs = s.incs) ∧
      (inner total cs rem s).2.last = (inner total cs rem s).2.records.length ∧
      (inner total cs rem s).2.incs = s.incs ∧ (inner total cs rem s).2.failure = s.failure
  | [], rem, s, h => ⟨⟨[], by simp [inner], by simp, fun i h => by simp at h⟩, h, rfl, rfl⟩
  | c :: cs, rem, s, h => by
    unfold inner
    simp only
    generalize (if c.stop = true then 0 else rem) = rem'
    by_cases hs : (c.ready && (s.last == 0 || rem' != total)) = true
    · simp only [hs, if_true]
      have hready : c.ready = true := by simp only [Bool.and_eq_true] at hs; exact hs.1
      have hsave : (save s).last = (save s).records.length := by simp [save, h]
      by_cases hz : rem' = 0
      · simp only [hz, if_true]
        refine ⟨⟨[⟨s.last, s.incs⟩], rfl, by simp [List.filter_cons, hready], ?_⟩, hsave, rfl, rfl⟩
        intro i hi
        simp only [List.length_singleton] at hi
        have : i = 0 := by omega
        subst this; simp
      · simp only [hz, if_false]
        obtain ⟨⟨new, h1, h2, h3⟩, h4, h5, h6⟩ := inner_mono total cs rem' (save s) hsave
        refine ⟨⟨⟨s.last, s.incs⟩ :: new, ?_, ?_, ?_⟩, h4, h5, h6⟩
        · rw [h1]; simp [save]
        · simp [List.filter_cons, hready, h2]
        · intro i hi
          cases i with
          | zero => simp
          | succ i =>
            have := h3 i (by simpa using hi)
            simp only [List.getElem_cons_succ]
            refine ⟨by rw [this.1]; simp [save]; omega, this.2⟩
    · simp only [hs, Bool.false_eq_true, if_false]
      by_cases hz : rem' = 0
      · simp only [hz, if_true]
        exact ⟨⟨[], by simp, by simp, fun i h => by simp at h⟩, h, trivial, trivial⟩
      · simp only [hz, if_false]
        obtain ⟨⟨new, h1, h2, h3⟩, h4, h5, h6⟩ := inner_mono total cs rem' s h
        refine ⟨⟨new, h1, le_trans h2 ?_, h3⟩, h4, h5, h6⟩
        rw [List.filter_cons]; split_ifs <;> simp

/-- Numbers of records match their positions. -/
def Numbered (s : St) : Prop := s.last = s.records.length ∧ ∀ i (h : i < s.records.length), s.records[i].index = i

theorem inner_numbered {total : ℕ} {cs : List EngineCall} {rem : ℕ} {s : St} (h : Numbered s) :
    Numbered (inner total cs rem s).2 := by
  obtain ⟨⟨new, h1, _, h3⟩, h4, _, _⟩ := inner_mono total cs rem s h.1
  refine ⟨h4, ?_⟩
  rw [h1]
  intro i hi
  by_cases hlt : i < s.records.length
  · rw [List.getElem_append_left hlt]; exact h.2 i hlt
  · rw [List.getElem_append_right (by omega)]
    have := h3 (i - s.records.length) (by simp only [List.length_append] at hi; omega)
    rw [this.1, h.1]; omega

theorem outer_numbered {total : ℕ} {steps : ℕ → Step} : ∀ (rem k : ℕ) (s : St), Numbered s →
    Numbered (outer total steps rem k s).1 ∧ s.records <+: (outer total steps rem k s).1.records ∧
      (s.failure = true → (outer total steps rem k s).1.failure = true)
  | 0, _, s, h => ⟨h, List.prefix_rfl, fun h => h⟩
  | rem + 1, k, s, h => by
    have hi := inner_numbered (total := total) (cs := (steps k).calls) (rem := rem + 1) h
    obtain ⟨⟨new, h1, _, _⟩, _, _, h6⟩ := inner_mono total (steps k).calls (rem + 1) s h.1
    have hpre : s.records <+: (inner total (steps k).calls (rem + 1) s).2.records := ⟨new, h1.symm⟩
    have hfl : s.failure = true → (inner total (steps k).calls (rem + 1) s).2.failure = true := fun h => by rw [h6, h]
    unfold outer
    simp only
    generalize hg : inner total (steps k).calls (rem + 1) s = r at hi hpre hfl
    by_cases hok : (steps k).ok = true
    · simp only [hok, if_true]
      generalize (if (steps k).stopBefore = true then 0 else r.1) = left
      generalize hs' : (if left > 1 then { r.2 with incs := r.2.incs + 1 } else r.2 : St) = s'
      have hn : Numbered s' ∧ r.2.records = s'.records ∧ r.2.failure = s'.failure := by
        subst hs'; split_ifs
        · exact ⟨hi, rfl, rfl⟩
        · exact ⟨hi, rfl, rfl⟩
      split_ifs
      · exact ⟨hn.1, hn.2.1 ▸ hpre, fun h => hn.2.2 ▸ hfl h⟩
      · obtain ⟨g1, g2, g3⟩ := outer_numbered rem (k + 1) s' hn.1
        exact ⟨g1, List.IsPrefix.trans (hn.2.1 ▸ hpre) g2, fun h => g3 (hn.2.2 ▸ hfl h)⟩
    · simp only [hok, Bool.false_eq_true, if_false]
      exact ⟨hi, hpre, fun _ => trivial⟩

/-- Whatever the engine reports and whenever stop requests arrive, a run only appends records and every record's index is
its position. -/
theorem C34_append_only (n : ℕ) (steps : ℕ → Step) (s : St) (h : Numbered s) :
    Numbered (equilibrate n steps s).1 ∧ s.records <+: (equilibrate n steps s).1.records :=
  ⟨(outer_numbered _ _ s h).1, (outer_numbered _ _ s h).2.1⟩

/-- The failure flag is never taken back by a later run, even a successful one. -/
theorem C34_failure_sticky (n : ℕ) (steps : ℕ → Step) (s : St) (h : Numbered s) (hf : s.failure = true) :
    (equilibrate n steps s).1.failure = true := (outer_numbered _ _ s h).2.2 hf

theorem outer_failure {total : ℕ} {steps steps' : ℕ → Step} : ∀ (rem k j : ℕ) (s : St),
    j < rem → (∀ i < j, (steps (k + i)).ok = true ∧ (steps (k + i)).stopBefore = false ∧ (steps (k + i)).stopAfter = false ∧
      ∀ c ∈ (steps (k + i)).calls, c.stop = false) → (steps (k + j)).ok = false →
    (∀ i ≤ j, steps' (k + i) = steps (k + i)) →
    outer total steps rem k s = outer total steps' rem k s ∧ (outer total steps rem k s).2 = false ∧
      (outer total steps rem k s).1.failure = true
  | 0, _, _, _, h, _, _, _ => by omega
  | rem + 1, k, j, s, h, hi, hj, he => by
    unfold outer
    rw [show steps' k = steps k from he 0 (by omega)]
    cases j with
    | zero =>
      simp only [Nat.add_zero] at hj
      simp [hj]
    | succ j =>
      obtain ⟨h1, h2, h3, _⟩ := hi 0 (by omega)
      simp only [Nat.add_zero] at h1 h2 h3
      simp only [h1, h2, h3, if_true, Bool.false_eq_true, if_false, Bool.or_false]
      have hnz : (inner total (steps k).calls (rem + 1) s).1 ≠ 0 := by
        have h4 := (hi 0 (by omega)).2.2.2
        simp only [Nat.add_zero] at h4
        have : ∀ (cs : List EngineCall) (s : St), (∀ c ∈ cs, c.stop = false) → (inner total cs (rem + 1) s).1 = rem + 1 := by
          intro cs
          induction cs with
          | nil => intro s _; rfl
          | cons c cs ih =>
            intro s hc
            unfold inner
            simp only [hc c (by simp), Bool.false_eq_true, if_false, Nat.succ_ne_zero]
            exact ih _ fun x hx => hc x (by simp [hx])
        rw [this _ _ h4]; omega
      simp only [hnz, decide_false, Bool.false_eq_true, if_false]
      refine outer_failure rem (k + 1) j _ (by omega) ?_ ?_ ?_
      · intro i hij; have := hi (i + 1) (by omega); rwa [show k + (i + 1) = k + 1 + i by omega] at this
      · rwa [show k + (j + 1) = k + 1 + j by omega] at hj
      · intro i hij; have := he (i + 1) (by omega); rwa [show k + (i + 1) = k + 1 + i by omega] at this

/-- The first failing step ends the run: it returns false, the failure flag is set, and nothing the engine would report
later is looked at. -/
theorem C34_failure (n j : ℕ) (steps steps' : ℕ → Step) (s : St) (hj : j ≤ n)
    (hi : ∀ i < j, (steps i).ok = true ∧ (steps i).stopBefore = false ∧ (steps i).stopAfter = false ∧
      ∀ c ∈ (steps i).calls, c.stop = false) (hf : (steps j).ok = false) (he : ∀ i ≤ j, steps' i = steps i) :
    equilibrate n steps s = equilibrate n steps' s ∧ (equilibrate n steps s).2 = false ∧
      (equilibrate n steps s).1.failure = true := by
  refine outer_failure (n + 1) 0 j s (by omega) ?_ ?_ ?_
  · intro i h; rw [Nat.zero_add]; exact hi i h
  · rwa [Nat.zero_add]
  · intro i h; rw [Nat.zero_add]; exact he i h

/-- A stop request during the first call that is ready, in a continuation run, records the unchanged state a second time
(the initial step of a continuation is otherwise not recorded). -/
theorem C34_stop_duplicates (n : ℕ) (s : St) (hl : Ledger s) (h0 : s.last ≠ 0) :
    (equilibrate n (fun _ => { calls := [⟨true, true⟩] }) s).1.records =
      s.records ++ [⟨s.last, s.last - 1⟩] := by
  unfold equilibrate outer inner
  simp [save, hl.2]

/-! ### The hypotheses are met -/

/-- Two silent calls, then output, then the end. -/
def exStep : Step := { calls := [⟨false, false⟩, ⟨false, false⟩, ⟨true, false⟩, ⟨false, false⟩] }

example : Clean exStep := by unfold Clean exStep; decide
example : (equilibrate 2 (fun _ => exStep) {}).1 =
    { records := [⟨0, 0⟩, ⟨1, 1⟩, ⟨2, 2⟩], last := 3, incs := 2, failure := false } := by decide
example : (equilibrate 1 (fun _ => exStep) (equilibrate 2 (fun _ => exStep) {}).1).1.records =
    [⟨0, 0⟩, ⟨1, 1⟩, ⟨2, 2⟩, ⟨3, 3⟩] := by decide
example : (equilibrate 5 (fun k => { exStep with ok := k != 2 }) {}) =
    ({ records := [⟨0, 0⟩, ⟨1, 1⟩, ⟨2, 2⟩], last := 3, incs := 2, failure := true }, false) := by decide
example : Ledger (equilibrate 2 (fun _ => exStep) {}).1 := by unfold Ledger; decide
example : Numbered {} := ⟨rfl, fun i h => by simp at h⟩

end Magma.Iface.Run
