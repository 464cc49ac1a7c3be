import Mathlib.Data.List.Induction
import Mathlib.Logic.Function.Basic
import Mathlib.Tactic.Common

/-!
Phase selection: the array `incSolids` of the state, as written by the user interface and as read by the engine.

The array has one entry per PHASE record of the table `solids` (not per table index) and one at index `npc` for the
liquid. Writers and readers all walk the table with a second counter `j`.
-/

namespace Magma.Iface.Suppress

/-- A row of `solids[]`, /repo/includes/silmin.h: the fields used here. -/
structure Solid where
  /-- `type == PHASE` -/
  isPhase : Bool
  label : List Char
  /-- `nr == 0 || (nr > 0 && convert != NULL)` -/
  usable : Bool := true

abbrev Inc := ℕ → Bool

/-- `if (solids[i].type == PHASE) { incSolids[j] = v(i); j++; }` over the rest of the table:
/repo/src/melts_interface.cpp 216-220, 241-251, 261-266, /repo/sources/library.c 455, 1350. -/
def fill (v : ℕ → Bool) : List Solid → ℕ → ℕ → Inc → Inc
  | [], _, _, inc => inc
  | s :: r, i, j, inc =>
    if s.isPhase then fill v r (i + 1) (j + 1) (Function.update inc j (v i)) else fill v r (i + 1) j inc

/-- Table indices of the phases the engine considers: the loop `for (i=0, j=0; i<npc; i++) if (solids[i].type == PHASE)
{ if (incSolids[j]) ...; j++; }` of /repo/sources/evaluate_saturation.c 308-311, silmin.c 511-513, 1365-1367,
liquidus.c 231-233. -/
def admitted (inc : Inc) : List Solid → ℕ → ℕ → List ℕ
  | [], _, _ => []
  | s :: r, i, j =>
    if s.isPhase then (if inc j then [i] else []) ++ admitted inc r (i + 1) (j + 1) else admitted inc r (i + 1) j

/-- The part of `MeltsInterface` concerned: `inc = none` while there is no state (`p_SS` is NULL). -/
structure Facade where
  inc : Option Inc := none
  suppressed : List ℕ := []

/-- Calls of the user. The keys of the `map<int, string>` are what `SetSuppressedPhases` uses. -/
inductive Call where
  /-- `InitializeMelts` or `CreateSilminState` -/
  | create
  | suppress (keys : List ℕ)
  | clear
  /-- any call that does not touch the phase selection -/
  | other

/-- melts_interface.cpp 159-234 (`CreateSilminState`; `calloc` gives zeros), 236-254, 256-269; `none` result: the call
returned `false`. -/
def call (T : List Solid) (f : Facade) : Call → Facade
  | .create => { inc := some (Function.update (fill (fun _ => true) T 0 0 fun _ => false) T.length true), suppressed := [] }
  | .suppress ks =>
    match f.inc with
    | none => f
    | some inc => { inc := some (fill (fun i => if ks.contains i then false else true) T 0 0 inc), suppressed := ks }
  | .clear =>
    match f.inc with
    | none => f
    | some inc => { inc := some (fill (fun _ => true) T 0 0 inc), suppressed := [] }
  | .other => f

def run (T : List Solid) : Facade → List Call → Facade := List.foldl (call T)

/-! ### Specification -/

/-- The keys last suppressed in a history that starts without a state: what the user expects to be excluded. -/
def expected : List Call → Option (List ℕ)
  | h => h.foldl (fun (a : Option (List ℕ)) c => match c, a with
    | .create, _ => some []
    | .suppress ks, some _ => some ks
    | .clear, some _ => some []
    | .suppress _, none => none
    | .clear, none => none
    | .other, a => a) none

/-! ### Lemmas -/

theorem fill_lt (v : ℕ → Bool) : ∀ (T : List Solid) (i j : ℕ) (inc : Inc) (k : ℕ), k < j → fill v T i j inc k = inc k
  | [], _, _, _, _, _ => rfl
  | s :: r, i, j, inc, k, h => by
    unfold fill
    split_ifs
    · rw [fill_lt v r _ _ _ _ (by omega), Function.update_of_ne (by omega)]
    · exact fill_lt v r _ _ _ _ h

/-- Entries from the end of the table on are not written: in particular the flag of the liquid. -/
theorem fill_ge (v : ℕ → Bool) : ∀ (T : List Solid) (i j : ℕ) (inc : Inc) (k : ℕ), j + T.length ≤ k →
    fill v T i j inc k = inc k
  | [], _, _, _, _, _ => rfl
  | s :: r, i, j, inc, k, h => by
    simp only [List.length_cons] at h
    unfold fill
    split_ifs
    · rw [fill_ge v r _ _ _ _ (by omega), Function.update_of_ne (by omega)]
    · exact fill_ge v r _ _ _ _ (by omega)

theorem admitted_congr {inc inc' : Inc} : ∀ (T : List Solid) (i j : ℕ), (∀ k, j ≤ k → k < j + T.length → inc k = inc' k) →
    admitted inc T i j = admitted inc' T i j
  | [], _, _, _ => rfl
  | s :: r, i, j, h => by
    simp only [List.length_cons] at h
    unfold admitted
    rw [h j (Nat.le_refl _) (by omega), admitted_congr r (i + 1) (j + 1) (fun k a b => h k (by omega) (by omega)),
      admitted_congr r (i + 1) j (fun k a b => h k (by omega) (by omega))]

theorem mem_admitted_fill (v : ℕ → Bool) : ∀ (T : List Solid) (i j : ℕ) (inc : Inc) (x : ℕ),
    x ∈ admitted (fill v T i j inc) T i j ↔ i ≤ x ∧ (∃ s, T[x - i]? = some s ∧ s.isPhase = true) ∧ v x = true
  | [], _, _, _, _ => by simp [admitted]
  | s :: r, i, j, inc, x => by
    unfold admitted fill
    have tail : ∀ j' inc', (x ∈ admitted (fill v r (i + 1) j' inc') r (i + 1) j') ↔
        (i < x ∧ (∃ t, (s :: r)[x - i]? = some t ∧ t.isPhase = true) ∧ v x = true) := by
      intro j' inc'
      rw [mem_admitted_fill v r]
      constructor
      · rintro ⟨h1, h2, h3⟩
        refine ⟨by omega, ?_, h3⟩
        have : x - i = (x - (i + 1)) + 1 := by omega
        rw [this]; exact h2
      · rintro ⟨h1, h2, h3⟩
        refine ⟨by omega, ?_, h3⟩
        have : x - i = (x - (i + 1)) + 1 := by omega
        rw [this] at h2; exact h2
    by_cases hp : s.isPhase = true
    · simp only [hp, if_true]
      rw [List.mem_append, tail, fill_lt v r _ _ _ _ (by omega), Function.update_self]
      constructor
      · rintro (h | ⟨h1, h2, h3⟩)
        · split_ifs at h with hv
          · simp only [List.mem_singleton] at h
            subst h
            exact ⟨(Nat.le_refl _), ⟨s, by simp, hp⟩, hv⟩
          · simp at h
        · exact ⟨by omega, h2, h3⟩
      · rintro ⟨h1, h2, h3⟩
        rcases Nat.eq_or_lt_of_le h1 with h | h
        · subst h; left; simp [h3]
        · right; exact ⟨h, h2, h3⟩
    · simp only [hp, Bool.false_eq_true, if_false]
      rw [tail]
      constructor
      · rintro ⟨h1, h2, h3⟩; exact ⟨by omega, h2, h3⟩
      · rintro ⟨h1, ⟨t, h2, h2'⟩, h3⟩
        refine ⟨?_, ⟨t, h2, h2'⟩, h3⟩
        rcases Nat.eq_or_lt_of_le h1 with h | h
        · subst h
          simp only [Nat.sub_self, List.getElem?_cons_zero, Option.some.injEq] at h2
          subst h2; exact absurd h2' hp
        · exact h

/-- The engine considers the table row `x`. -/
def Admits (T : List Solid) (inc : Inc) (x : ℕ) : Prop := x ∈ admitted inc T 0 0

/-! ### C30 -/

/-- After any history of calls, a phase is considered by the engine exactly when it is in the table and is not among the
phases last suppressed; nothing is considered before a state exists. -/
theorem C30_selection (T : List Solid) (h : List Call) :
    match (run T {} h).inc, expected h with
    | some inc, some ks => ∀ x, Admits T inc x ↔ (∃ s, T[x]? = some s ∧ s.isPhase = true) ∧ x ∉ ks
    | none, none => True
    | _, _ => False := by
  induction h using List.reverseRecOn with
  | nil => simp [run, expected]
  | append_singleton h c ih =>
    have e1 : run T {} (h ++ [c]) = call T (run T {} h) c := by simp [run]
    have key : ∀ (ks : List ℕ) (inc : Inc) (x : ℕ),
        Admits T (fill (fun i => if ks.contains i then false else true) T 0 0 inc) x ↔
          (∃ s, T[x]? = some s ∧ s.isPhase = true) ∧ x ∉ ks := by
      intro ks inc x
      unfold Admits
      rw [mem_admitted_fill]
      simp
    have keyt : ∀ (inc : Inc) (x : ℕ), Admits T (fill (fun _ => true) T 0 0 inc) x ↔
          (∃ s, T[x]? = some s ∧ s.isPhase = true) ∧ x ∉ ([] : List ℕ) := by
      intro inc x
      unfold Admits
      rw [mem_admitted_fill]
      simp
    rw [e1]
    unfold expected at ih ⊢
    rw [List.foldl_append]
    simp only [List.foldl_cons, List.foldl_nil]
    revert ih
    generalize List.foldl _ (none : Option (List ℕ)) h = a
    generalize run T {} h = f
    intro ih
    obtain ⟨inc, sup⟩ := f
    cases c with
    | create =>
      simp only [call]
      intro x
      rw [← keyt (fun _ => false) x]
      unfold Admits
      rw [admitted_congr T 0 0 fun k _ hk => ?_]
      rw [Function.update_of_ne (by omega)]
    | suppress ks =>
      cases inc <;> cases a <;> simp only [call] at ih ⊢
      exact key ks _
    | clear =>
      cases inc <;> cases a <;> simp only [call] at ih ⊢
      exact keyt _
    | other => exact ih

/-- Suppressing and clearing phases never switches the liquid off: once a state exists the liquid is allowed. -/
theorem C30_liquid_allowed (T : List Solid) (h : List Call) (inc : Inc) (hi : (run T {} h).inc = some inc) :
    inc T.length = true := by
  induction h using List.reverseRecOn generalizing inc with
  | nil => simp [run] at hi
  | append_singleton h c ih =>
    have e1 : run T {} (h ++ [c]) = call T (run T {} h) c := by simp [run]
    rw [e1] at hi
    revert ih hi
    generalize run T {} h = f
    obtain ⟨inc0, sup⟩ := f
    intro ih hi
    cases c with
    | create =>
      simp only [call, Option.some.injEq] at hi
      subst hi; rw [Function.update_self]
    | suppress ks =>
      cases inc0 with
      | none => simp [call] at hi
      | some i0 =>
        simp only [call, Option.some.injEq] at hi
        subst hi
        rw [fill_ge _ _ _ _ _ _ (by omega)]
        exact ih i0 rfl
    | clear =>
      cases inc0 with
      | none => simp [call] at hi
      | some i0 =>
        simp only [call, Option.some.injEq] at hi
        subst hi
        rw [fill_ge _ _ _ _ _ _ (by omega)]
        exact ih i0 rfl
    | other => exact ih inc hi

/-- Keys that are not rows of the table, or that are rows of end members, change nothing. -/
theorem C30_unknown_key (T : List Solid) (inc : Inc) (ks ks' : List ℕ)
    (h : ∀ x s, T[x]? = some s → s.isPhase = true → (x ∈ ks ↔ x ∈ ks')) (sup : List ℕ) (x : ℕ) :
    (∃ i, (call T ⟨some inc, sup⟩ (.suppress ks)).inc = some i ∧ Admits T i x) ↔
      ∃ i, (call T ⟨some inc, sup⟩ (.suppress ks')).inc = some i ∧ Admits T i x := by
  simp only [call, Option.some.injEq, exists_eq_left']
  unfold Admits
  rw [mem_admitted_fill, mem_admitted_fill]
  simp only [Nat.sub_zero]
  constructor
  all_goals
    rintro ⟨h1, ⟨s, h2, h2'⟩, h3⟩
    refine ⟨h1, ⟨s, h2, h2'⟩, ?_⟩
    have := h x s h2 h2'
    simp at h3 ⊢
    tauto

/-! ### Wet liquidus, liquidus.c 346-411: the phase selection is changed and restored -/

/-- The writer of findWetLiquidus, liquidus.c 362-368: counts only usable phases. Returns the array and the saved
values. -/
def only (keep : List Char → Bool) : List Solid → ℕ → Inc → Inc → Inc × Inc
  | [], _, inc, old => (inc, old)
  | s :: r, j, inc, old =>
    if s.isPhase && s.usable then
      only keep r (j + 1) (Function.update inc j (keep s.label)) (Function.update old j (inc j))
    else only keep r j inc old

/-- liquidus.c 384-387. -/
def restore : List Solid → ℕ → Inc → Inc → Inc
  | [], _, inc, _ => inc
  | s :: r, j, inc, old =>
    if s.isPhase && s.usable then restore r (j + 1) (Function.update inc j (old j)) old else restore r j inc old

/-- liquidus.c 365-366. -/
def keepFluid (l : List Char) : Bool := l = "water".toList || l = "fluid".toList

/-- What the two engines reported in one iteration, and whether the temperature moved by more than 0.5. -/
structure Iter where
  silminOk : Bool
  liquidusOk : Bool
  moved : Bool

/-- The `do ... while` loop, liquidus.c 360-402; `outs` gives the outcome of each iteration. Result: the phase selection,
the iteration count and whether the loop was left by a `break`. `silmin` and `liquidus` only read the selection. -/
def wetLoop (T : List Solid) (outs : ℕ → Iter) : ℕ → ℕ → Inc → Inc × ℕ × Bool
  | 0, iter, inc => (inc, iter, false)
  | k + 1, iter, inc =>
    let p := only keepFluid T 0 inc (fun _ => false)
    let o := outs iter
    if o.silminOk then
      let inc := restore T 0 p.1 p.2
      if o.liquidusOk then
        if o.moved && decide (iter + 1 < 50) then wetLoop T outs k (iter + 1) inc else (inc, iter + 1, false)
      else (inc, iter, true)
    else (p.1, iter, true)

/-- findWetLiquidus, liquidus.c 346-411, when there are no solids and one liquid: selection afterwards and the returned
`failure`. -/
def wet (T : List Solid) (outs : ℕ → Iter) (inc : Inc) : Inc × Bool :=
  let r := wetLoop T outs 50 0 inc
  (r.1, decide (r.2.1 = 50))

theorem only_lt (keep : List Char → Bool) : ∀ (T : List Solid) (j : ℕ) (inc old : Inc) (k : ℕ), k < j →
    (only keep T j inc old).1 k = inc k ∧ (only keep T j inc old).2 k = old k
  | [], _, _, _, _, _ => ⟨rfl, rfl⟩
  | s :: r, j, inc, old, k, h => by
    unfold only
    split_ifs
    · obtain ⟨h1, h2⟩ := only_lt keep r (j + 1) (Function.update inc j (keep s.label)) (Function.update old j (inc j)) k
        (by omega)
      rw [h1, h2, Function.update_of_ne (by omega), Function.update_of_ne (by omega)]
      exact ⟨rfl, rfl⟩
    · exact only_lt keep r j inc old k h

theorem restore_lt : ∀ (T : List Solid) (j : ℕ) (inc old : Inc) (k : ℕ), k < j → restore T j inc old k = inc k
  | [], _, _, _, _, _ => rfl
  | s :: r, j, inc, old, k, h => by
    unfold restore
    split_ifs
    · rw [restore_lt r _ _ _ _ (by omega), Function.update_of_ne (by omega)]
    · exact restore_lt r _ _ _ _ h

theorem restore_only (keep : List Char → Bool) : ∀ (T : List Solid) (j : ℕ) (inc inc0 old : Inc),
    (∀ k, j ≤ k → inc k = inc0 k) → ∀ (inc' : Inc), (∀ k, j ≤ k → inc' k = (only keep T j inc old).1 k) →
    ∀ k, j ≤ k → restore T j inc' (only keep T j inc old).2 k = inc0 k
  | [], j, inc, inc0, old, h, inc', h', k, hk => by
    show inc' k = _
    rw [h' k hk]; exact h k hk
  | s :: r, j, inc, inc0, old, h, inc', h', k, hk => by
    unfold restore
    unfold only at h' ⊢
    by_cases hu : (s.isPhase && s.usable) = true
    · simp only [hu, if_true] at h' ⊢
      rcases Nat.eq_or_lt_of_le hk with e | hlt
      · subst e
        rw [restore_lt _ _ _ _ _ (by omega), Function.update_self, (only_lt keep r _ _ _ _ (by omega)).2,
          Function.update_self]
        exact h j (Nat.le_refl _)
      · refine restore_only keep r (j + 1) (Function.update inc j (keep s.label)) inc0 _ ?_ _ ?_ k hlt
        · intro k hk; rw [Function.update_of_ne (by omega)]; exact h k (by omega)
        · intro k hk; rw [Function.update_of_ne (by omega)]; exact h' k (by omega)
    · simp only [hu, Bool.false_eq_true, if_false] at h' ⊢
      exact restore_only keep r j inc inc0 old h inc' h' k hk

theorem restored (T : List Solid) (inc : Inc) :
    restore T 0 (only keepFluid T 0 inc fun _ => false).1 (only keepFluid T 0 inc fun _ => false).2 = inc := by
  funext k
  exact restore_only keepFluid T 0 inc inc _ (fun _ _ => rfl) _ (fun _ _ => rfl) k (Nat.zero_le _)

theorem wetLoop_ok (T : List Solid) (outs : ℕ → Iter) (h : ∀ n, (outs n).silminOk = true) :
    ∀ (k iter : ℕ) (inc : Inc), (wetLoop T outs k iter inc).1 = inc
  | 0, _, _ => rfl
  | k + 1, iter, inc => by
    unfold wetLoop
    simp only [h iter, if_true, restored]
    split_ifs
    · exact wetLoop_ok T outs h k _ _
    · rfl
    · rfl

/-- If every equilibration inside the search succeeds, the search leaves the phase selection as it was, whatever the
liquidus stage did. -/
theorem C54_restores (T : List Solid) (outs : ℕ → Iter) (h : ∀ n, (outs n).silminOk = true) (inc : Inc) :
    (wet T outs inc).1 = inc := wetLoop_ok T outs h 50 0 inc

/-- When the table has only usable phases, during the search exactly water and fluid are considered. -/
theorem C54_only_fluid (T : List Solid) (hu : ∀ s ∈ T, s.isPhase = true → s.usable = true) (inc : Inc) (x : ℕ) :
    Admits T (only keepFluid T 0 inc fun _ => false).1 x ↔
      ∃ s, T[x]? = some s ∧ s.isPhase = true ∧ (s.label = "water".toList ∨ s.label = "fluid".toList) := by
  have gen : ∀ (T : List Solid) (i j : ℕ) (inc old : Inc), (∀ s ∈ T, s.isPhase = true → s.usable = true) →
      (x ∈ admitted (only keepFluid T j inc old).1 T i j ↔
        i ≤ x ∧ ∃ s, T[x - i]? = some s ∧ s.isPhase = true ∧ (s.label = "water".toList ∨ s.label = "fluid".toList)) := by
    intro T
    induction T with
    | nil => intro i j inc old _; simp [admitted]
    | cons s r ih =>
      intro i j inc old hu
      have hur : ∀ s ∈ r, s.isPhase = true → s.usable = true := fun t ht => hu t (List.mem_cons_of_mem _ ht)
      have shift : ∀ (P : Solid → Prop), (i + 1 ≤ x ∧ ∃ t, r[x - (i + 1)]? = some t ∧ P t) ↔
          (i < x ∧ ∃ t, (s :: r)[x - i]? = some t ∧ P t) := by
        intro P
        constructor
        · rintro ⟨h1, t, h2, h3⟩
          refine ⟨by omega, t, ?_, h3⟩
          have : x - i = (x - (i + 1)) + 1 := by omega
          rw [this]; exact h2
        · rintro ⟨h1, t, h2, h3⟩
          refine ⟨by omega, t, ?_, h3⟩
          have : x - i = (x - (i + 1)) + 1 := by omega
          rw [this] at h2; exact h2
      unfold admitted only
      by_cases hp : s.isPhase = true
      · have hus := hu s (List.mem_cons_self ..) hp
        simp only [hp, hus, Bool.and_self, if_true]
        rw [List.mem_append, ih _ _ _ _ hur, shift, (only_lt keepFluid r _ _ _ _ (by omega)).1, Function.update_self]
        constructor
        · rintro (h | ⟨h1, h2⟩)
          · split_ifs at h with hk
            · simp only [List.mem_singleton] at h
              subst h
              exact ⟨(Nat.le_refl _), s, by simp, hp, by simpa [keepFluid] using hk⟩
            · simp at h
          · exact ⟨by omega, h2⟩
        · rintro ⟨h1, t, h2, h3, h4⟩
          rcases Nat.eq_or_lt_of_le h1 with h | h
          · subst h
            simp only [Nat.sub_self, List.getElem?_cons_zero, Option.some.injEq] at h2
            subst h2
            left
            have : keepFluid s.label = true := by simpa [keepFluid] using h4
            simp [this]
          · exact Or.inr ⟨h, t, h2, h3, h4⟩
      · simp only [hp, Bool.false_and, Bool.false_eq_true, if_false]
        rw [ih _ _ _ _ hur, shift]
        constructor
        · rintro ⟨h1, h2⟩; exact ⟨by omega, h2⟩
        · rintro ⟨h1, t, h2, h3, h4⟩
          refine ⟨?_, t, h2, h3, h4⟩
          rcases Nat.eq_or_lt_of_le h1 with h | h
          · subst h
            simp only [Nat.sub_self, List.getElem?_cons_zero, Option.some.injEq] at h2
            subst h2; exact absurd h3 hp
          · exact h
  have := gen T 0 0 inc (fun _ => false) hu
  simpa [Admits] using this

theorem wetLoop_fails (T : List Solid) (outs : ℕ → Iter) (n : ℕ) (hn : n < 50) (h : (outs n).silminOk = false)
    (before : ∀ m < n, (outs m).silminOk = true ∧ (outs m).liquidusOk = true ∧ (outs m).moved = true) (inc : Inc) :
    ∀ (d k iter : ℕ), iter + d = n → d < k →
      wetLoop T outs k iter inc = ((only keepFluid T 0 inc fun _ => false).1, n, true)
  | 0, k, iter, e, hk => by
    obtain ⟨k, rfl⟩ : ∃ k', k = k' + 1 := ⟨k - 1, by omega⟩
    have e : iter = n := by omega
    subst e
    unfold wetLoop
    simp only [h, Bool.false_eq_true, if_false]
  | d + 1, k, iter, e, hk => by
    obtain ⟨k, rfl⟩ : ∃ k', k = k' + 1 := ⟨k - 1, by omega⟩
    obtain ⟨b1, b2, b3⟩ := before iter (by omega)
    have hlt : iter + 1 < 50 := by omega
    unfold wetLoop
    simp only [b1, b2, b3, if_true, restored, hlt, decide_true, Bool.and_self]
    exact wetLoop_fails T outs n hn h before inc d k (iter + 1) (by omega) (by omega)

/-- An equilibration that fails inside the search, in whichever iteration the search has come to, leaves every phase but
water and fluid suppressed, and the search still reports that it did not fail. -/
theorem C54_failure_keeps_suppression (T : List Solid) (hu : ∀ s ∈ T, s.isPhase = true → s.usable = true)
    (outs : ℕ → Iter) (n : ℕ) (hn : n < 50) (h : (outs n).silminOk = false)
    (before : ∀ m < n, (outs m).silminOk = true ∧ (outs m).liquidusOk = true ∧ (outs m).moved = true) (inc : Inc) :
    (wet T outs inc).2 = false ∧
      ∀ x, Admits T (wet T outs inc).1 x ↔
        ∃ s, T[x]? = some s ∧ s.isPhase = true ∧ (s.label = "water".toList ∨ s.label = "fluid".toList) := by
  have e := wetLoop_fails T outs n hn h before inc n 50 0 (by omega) hn
  unfold wet
  rw [e]
  exact ⟨by simp; omega, fun x => C54_only_fluid T hu inc x⟩

/-! ### The hypotheses are met -/

/-- Olivine with two end members, quartz, water. -/
def exT : List Solid :=
  [⟨true, "olivine".toList, true⟩, ⟨false, "fayalite".toList, true⟩, ⟨false, "forsterite".toList, true⟩,
    ⟨true, "quartz".toList, true⟩, ⟨true, "water".toList, true⟩]

example : ∃ inc, (run exT {} [.suppress [3], .create, .suppress [0], .other, .suppress [3]]).inc = some inc ∧
    admitted inc exT 0 0 = [0, 4] := ⟨_, rfl, by decide⟩
example : expected [.suppress [3], .create, .suppress [0], .other, .suppress [3]] = some [3] := by decide
example : ∀ s ∈ exT, s.isPhase = true → s.usable = true := by decide
/-- After a failed search olivine and quartz are gone although the user suppressed nothing. -/
example : admitted (wet exT (fun _ => ⟨false, true, false⟩) fun _ => true).1 exT 0 0 = [4] := by decide
/-- The same when the third equilibration fails. -/
example : admitted (wet exT (fun n => ⟨n < 2, true, true⟩) fun k => k != 1).1 exT 0 0 = [4] := by decide
example : admitted (wet exT (fun n => ⟨true, true, n < 3⟩) fun k => k != 1).1 exT 0 0 = [0, 4] := by decide

end Magma.Iface.Suppress
