import Mathlib.Data.List.Basic
import Mathlib.Data.List.Induction
import Mathlib.Data.List.Pairwise
import Mathlib.Data.List.Sort
import Mathlib.Tactic.Common
import Mathlib.Tactic.Linarith

/-!
The list of nodes of the library, /repo/sources/library.c 439-450 and the prologue that `meltsprocess_` (666-693),
`meltssetsystemproperty_` (1299-1319) and the function at 2306-2333 share.

States live in a heap; the list holds pairs of node number and pointer. `bsearch` is the usual binary search (as in glibc) and
`qsort` a stable sort with the same comparison. What a call does to the state of its node is an arbitrary function: the
quantities the engine keeps outside `silminState` are not modelled here.
-/

namespace Magma.Lib.Nodes

variable {S : Type*}

/-- `compareNodes`, library.c 446-450: difference of two `int`, with the usual wrap-around. -/
def compareNodes (a b : ℤ) : ℤ := (a - b).bmod (2 ^ 32)

/-- `nodeList` (numberNodes is its length), and the memory the states are in; `next` is the next free address. -/
structure World (S : Type*) where
  list : List (ℤ × ℕ)
  heap : ℕ → S
  next : ℕ

/-- `bsearch(&key, nodeList, ...)`: half-open interval `l`, `u`. -/
def bsearch (key : ℤ) (list : List (ℤ × ℕ)) (l u : ℕ) : Option (ℤ × ℕ) :=
  if h : l < u then
    match list[(l + u) / 2]? with
    | none => none
    | some x =>
      if compareNodes key x.1 < 0 then bsearch key list l ((l + u) / 2)
      else if 0 < compareNodes key x.1 then bsearch key list ((l + u) / 2 + 1) u
      else some x
  else none
termination_by u - l

/-- `qsort(nodeList, ...)` -/
def sort (list : List (ℤ × ℕ)) : List (ℤ × ℕ) := list.mergeSort fun a b => compareNodes a.1 b.1 ≤ 0

/-- library.c 666-693: find the node or append a new one (`createSilminState`, a fixed initial state) and sort. -/
def select (fresh : S) (w : World S) (node : ℤ) : World S × ℕ :=
  if w.list ≠ [] then
    match bsearch node w.list 0 w.list.length with
    | some x => (w, x.2)
    | none =>
      ({ list := sort (w.list ++ [(node, w.next)]), heap := Function.update w.heap w.next fresh, next := w.next + 1 }, w.next)
  else ({ list := [(node, w.next)], heap := Function.update w.heap w.next fresh, next := w.next + 1 }, w.next)

/-- A call for a node: select it, then change its state. -/
def call (fresh : S) (w : World S) (c : ℤ × (S → S)) : World S :=
  let (w, p) := select fresh w c.1
  { w with heap := Function.update w.heap p (c.2 (w.heap p)) }

/-! ### Specification -/

/-- One state per node number. -/
def spec (fresh : S) (m : ℤ → Option S) (c : ℤ × (S → S)) : ℤ → Option S :=
  Function.update m c.1 (some (c.2 ((m c.1).getD fresh)))

/-- The state the library has for a node. -/
def view (w : World S) (node : ℤ) : Option S := (w.list.find? fun x => x.1 = node).map fun x => w.heap x.2

/-- Node numbers for which the comparison does not overflow: the non-negative ones. -/
def Ok (node : ℤ) : Prop := 0 ≤ node ∧ node < 2 ^ 31

/-! ### Lemmas -/

theorem compare_ok {a b : ℤ} (ha : Ok a) (hb : Ok b) : compareNodes a b = a - b := by
  unfold compareNodes
  unfold Ok at ha hb
  apply Int.bmod_eq_of_le <;> omega

structure Inv (w : World S) : Prop where
  ok : ∀ x ∈ w.list, Ok x.1
  sorted : w.list.Pairwise fun a b => a.1 < b.1
  fresh : ∀ x ∈ w.list, x.2 < w.next
  distinct : w.list.Pairwise fun a b => a.2 ≠ b.2

theorem bsearch_spec (key : ℤ) (hk : Ok key) (list : List (ℤ × ℕ)) (hok : ∀ x ∈ list, Ok x.1)
    (hs : list.Pairwise fun a b => a.1 < b.1) : ∀ (n l u : ℕ), u - l ≤ n → u ≤ list.length →
    (∀ i (hi : i < list.length), i < l → list[i].1 < key) → (∀ i (hi : i < list.length), u ≤ i → key < list[i].1) →
    bsearch key list l u = list.find? fun x => x.1 = key := by
  intro n
  have none_case : ∀ l u : ℕ, u ≤ l → u ≤ list.length → (∀ i (hi : i < list.length), i < l → list[i].1 < key) →
      (∀ i (hi : i < list.length), u ≤ i → key < list[i].1) → bsearch key list l u = list.find? fun x => x.1 = key := by
    intro l u hul hu h1 h2
    rw [bsearch, dif_neg (by omega), eq_comm, List.find?_eq_none]
    intro x hx
    obtain ⟨i, hi, rfl⟩ := List.mem_iff_getElem.mp hx
    by_cases h : i < l
    · have := h1 i hi h; simp; omega
    · have := h2 i hi (by omega); simp; omega
  induction n with
  | zero => intro l u hn hu h1 h2; exact none_case l u (by omega) hu h1 h2
  | succ n ih =>
    intro l u hn hu h1 h2
    by_cases hlu : l < u
    · have hm : (l + u) / 2 < list.length := by omega
      rw [bsearch, dif_pos hlu, List.getElem?_eq_getElem hm]
      simp only
      rw [compare_ok hk (hok _ (List.getElem_mem hm))]
      have hlt : ∀ i j (hi : i < list.length) (hj : j < list.length), i < j → list[i].1 < list[j].1 :=
        fun i j hi hj h => (List.pairwise_iff_getElem.mp hs) i j hi hj h
      by_cases hc : key - list[(l + u) / 2].1 < 0
      · rw [if_pos hc]
        refine ih l _ (by omega) (by omega) h1 fun i hi h => ?_
        rcases Nat.lt_or_eq_of_le h with h | h
        · have := hlt _ _ hm hi h; omega
        · subst h; omega
      · rw [if_neg hc]
        by_cases hc2 : 0 < key - list[(l + u) / 2].1
        · rw [if_pos hc2]
          refine ih _ u (by omega) hu (fun i hi h => ?_) h2
          rcases Nat.lt_or_eq_of_le (Nat.le_of_lt_succ h) with h | h
          · have := hlt _ _ hi hm h; omega
          · subst h; omega
        · rw [if_neg hc2, eq_comm, List.find?_eq_some_iff_getElem]
          refine ⟨by simp; omega, (l + u) / 2, hm, rfl, fun j hj => ?_⟩
          have := hlt j _ (by omega) hm hj
          simp; omega
    · exact none_case l u (by omega) hu h1 h2

theorem find_perm {l l' : List (ℤ × ℕ)} (hp : l.Perm l') (hn : l.Pairwise fun a b => a.1 ≠ b.1) (node : ℤ) :
    l.find? (fun x => x.1 = node) = l'.find? fun x => x.1 = node := by
  have hu : ∀ a ∈ l, ∀ b ∈ l, a.1 = b.1 → a = b := by
    intro a ha b hb e
    obtain ⟨i, hi, rfl⟩ := List.mem_iff_getElem.mp ha
    obtain ⟨j, hj, rfl⟩ := List.mem_iff_getElem.mp hb
    have hpw := List.pairwise_iff_getElem.mp hn
    rcases Nat.lt_trichotomy i j with h | h | h
    · exact absurd e (hpw i j hi hj h)
    · subst h; rfl
    · exact absurd e.symm (hpw j i hj hi h)
  cases h1 : l.find? (fun x => x.1 = node) with
  | none =>
    rw [eq_comm, List.find?_eq_none]
    rw [List.find?_eq_none] at h1
    exact fun x hx => h1 x (hp.mem_iff.mpr hx)
  | some x =>
    have hx := List.mem_of_find?_eq_some h1
    have hxp := List.find?_some h1
    cases h2 : l'.find? (fun x => x.1 = node) with
    | none =>
      rw [List.find?_eq_none] at h2
      exact absurd hxp (h2 x (hp.mem_iff.mp hx))
    | some y =>
      have hy := hp.mem_iff.mpr (List.mem_of_find?_eq_some h2)
      have hyp := List.find?_some h2
      simp only [decide_eq_true_eq] at hxp hyp
      rw [hu x hx y hy (by omega)]

theorem sort_perm (l : List (ℤ × ℕ)) : (sort l).Perm l := List.mergeSort_perm _ _

/-- A merge sort only depends on how its comparison answers on the members of the list. -/
theorem mergeSort_congr {α : Type} {l : List α} {r s : α → α → Bool} (h : ∀ a b, a ∈ l → b ∈ l → r a b = s a b) :
    l.mergeSort r = l.mergeSort s := by
  have := List.map_mergeSort (f := id) (l := l) (r := r) (s := s) (fun a ha b hb => h a b ha hb)
  simpa using this

theorem sort_sorted (l : List (ℤ × ℕ)) (hok : ∀ x ∈ l, Ok x.1) (hn : l.Pairwise fun a b => a.1 ≠ b.1) :
    (sort l).Pairwise fun a b => a.1 < b.1 := by
  -- on numbers in range the comparison is that of integers
  have e : sort l = l.mergeSort fun a b => decide (a.1 ≤ b.1) := by
    have key : ∀ (a b : ℤ × ℕ), a ∈ l → b ∈ l → decide (compareNodes a.1 b.1 ≤ 0) = decide (a.1 ≤ b.1) := by
      intro a b ha hb
      rw [compare_ok (hok a ha) (hok b hb)]
      exact decide_eq_decide.mpr (by omega)
    exact mergeSort_congr key
  rw [e]
  have h1 : (l.mergeSort fun a b => decide (a.1 ≤ b.1)).Pairwise fun a b => decide (a.1 ≤ b.1) = true :=
    List.pairwise_mergeSort (le := fun a b : ℤ × ℕ => decide (a.1 ≤ b.1))
      (by intro a b c; simp only [decide_eq_true_eq]; omega) (by intro a b; simp only [Bool.or_eq_true, decide_eq_true_eq]; omega) l
  have h2 : (l.mergeSort fun a b => decide (a.1 ≤ b.1)).Pairwise fun a b => a.1 ≠ b.1 :=
    (List.mergeSort_perm l _).symm.pairwise hn (fun h => Ne.symm h)
  exact (h1.and h2).imp fun h => by simp only [decide_eq_true_eq] at h; exact lt_of_le_of_ne h.1 h.2

theorem bsearch_find (w : World S) (h : Inv w) (node : ℤ) (hn : Ok node) :
    bsearch node w.list 0 w.list.length = w.list.find? fun x => x.1 = node :=
  bsearch_spec node hn w.list h.ok h.sorted w.list.length 0 w.list.length (by omega) (le_refl _)
    (fun i _ h => absurd h (Nat.not_lt_zero _)) (fun i hi h => by omega)

/-- What selecting a node gives, whether the list is empty or not. -/
theorem select_spec (fresh : S) (w : World S) (h : Inv w) (node : ℤ) (hn : Ok node) :
    Inv (select fresh w node).1 ∧ (node, (select fresh w node).2) ∈ (select fresh w node).1.list ∧
      (∀ n, view (select fresh w node).1 n = if n = node then some ((view w node).getD fresh) else view w n) := by
  have hnew : ∀ l, l.Perm (w.list ++ [(node, w.next)]) → l.Pairwise (fun a b => a.1 < b.1) →
      w.list.find? (fun x => decide (x.1 = node)) = none →
      let w' : World S := { list := l, heap := Function.update w.heap w.next fresh, next := w.next + 1 }
      Inv w' ∧ (node, w.next) ∈ w'.list ∧
      (∀ n, view w' n = if n = node then some ((view w node).getD fresh) else view w n) := by
    intro l hp hs hf w'
    have hne : ∀ x ∈ w.list, x.1 ≠ node := by
      rw [List.find?_eq_none] at hf
      intro x hx; simpa using hf x hx
    have hpw : (w.list ++ [(node, w.next)]).Pairwise fun a b => a.1 ≠ b.1 := by
      rw [List.pairwise_append]
      exact ⟨h.sorted.imp fun h => ne_of_lt h, List.pairwise_singleton _ _, fun a ha b hb => by
        simp only [List.mem_singleton] at hb; subst hb; exact hne a ha⟩
    have hpd : (w.list ++ [(node, w.next)]).Pairwise fun a b => a.2 ≠ b.2 := by
      rw [List.pairwise_append]
      exact ⟨h.distinct, List.pairwise_singleton _ _, fun a ha b hb => by
        simp only [List.mem_singleton] at hb; subst hb; exact ne_of_lt (h.fresh a ha)⟩
    refine ⟨⟨fun x hx => ?_, hs, fun x hx => ?_, hp.symm.pairwise hpd (fun h => Ne.symm h)⟩, hp.mem_iff.mpr (by simp), fun n => ?_⟩
    · rcases List.mem_append.mp (hp.mem_iff.mp hx) with hx | hx
      · exact h.ok x hx
      · simp only [List.mem_singleton] at hx; subst hx; exact hn
    · show x.2 < w.next + 1
      rcases List.mem_append.mp (hp.mem_iff.mp hx) with hx | hx
      · have := h.fresh x hx; omega
      · simp only [List.mem_singleton] at hx; subst hx; simp
    · have hv : view w node = none := by unfold view; rw [hf]; rfl
      show (l.find? fun x => decide (x.1 = n)).map (fun x => Function.update w.heap w.next fresh x.2) = _
      rw [find_perm hp (hp.symm.pairwise hpw (fun h => Ne.symm h)) n, List.find?_append, hv]
      by_cases e : n = node
      · subst e
        rw [hf, if_pos rfl]
        simp
      · rw [if_neg e]
        unfold view
        cases hc : w.list.find? (fun x => decide (x.1 = n)) with
        | none => simp [Ne.symm e]
        | some x =>
          have := h.fresh x (List.mem_of_find?_eq_some hc)
          simp only [Option.some_or, Option.map_some]
          rw [Function.update_of_ne (by omega)]
  unfold select
  by_cases hl : w.list = []
  · rw [if_neg (by simp [hl])]
    exact hnew [(node, w.next)] (by simp [hl]) (List.pairwise_singleton _ _) (by simp [hl])
  · rw [if_pos hl, bsearch_find w h node hn]
    cases hf : w.list.find? (fun x => decide (x.1 = node)) with
    | none =>
      have hne : ∀ x ∈ w.list, x.1 ≠ node := by
        rw [List.find?_eq_none] at hf
        intro x hx; simpa using hf x hx
      refine hnew (sort (w.list ++ [(node, w.next)])) (sort_perm _) (sort_sorted _ ?_ ?_) hf
      · intro x hx
        rcases List.mem_append.mp hx with hx | hx
        · exact h.ok x hx
        · simp only [List.mem_singleton] at hx; subst hx; exact hn
      · rw [List.pairwise_append]
        exact ⟨h.sorted.imp fun h => ne_of_lt h, List.pairwise_singleton _ _, fun a ha b hb => by
          simp only [List.mem_singleton] at hb; subst hb; exact hne a ha⟩
    | some x =>
      have hx := List.mem_of_find?_eq_some hf
      have hxp := List.find?_some hf
      simp only [decide_eq_true_eq] at hxp
      refine ⟨h, by rw [← hxp]; exact hx, fun n => ?_⟩
      by_cases e : n = node
      · subst e; rw [if_pos rfl]; unfold view; rw [hf]; rfl
      · rw [if_neg e]

theorem mem_unique {l : List (ℤ × ℕ)} (hs : l.Pairwise fun a b => a.1 < b.1) {a b : ℤ × ℕ} (ha : a ∈ l) (hb : b ∈ l)
    (e : a.1 = b.1) : a = b := by
  obtain ⟨i, hi, rfl⟩ := List.mem_iff_getElem.mp ha
  obtain ⟨j, hj, rfl⟩ := List.mem_iff_getElem.mp hb
  have hpw := List.pairwise_iff_getElem.mp hs
  rcases Nat.lt_trichotomy i j with h | h | h
  · have := hpw i j hi hj h; omega
  · subst h; rfl
  · have := hpw j i hj hi h; omega

theorem call_spec (fresh : S) (w : World S) (h : Inv w) (c : ℤ × (S → S)) (hn : Ok c.1) :
    Inv (call fresh w c) ∧ view (call fresh w c) = spec fresh (view w) c := by
  obtain ⟨h1, h2, h3⟩ := select_spec fresh w h c.1 hn
  unfold call
  set r := select fresh w c.1 with hr
  refine ⟨⟨h1.ok, h1.sorted, h1.fresh, h1.distinct⟩, ?_⟩
  have hfind : ∀ n x, r.1.list.find? (fun x => decide (x.1 = n)) = some x → (x.2 = r.2 ↔ n = c.1) := by
    intro n x hx
    have hm := List.mem_of_find?_eq_some hx
    have hp := List.find?_some hx
    simp only [decide_eq_true_eq] at hp
    constructor
    · intro e
      by_contra hne
      obtain ⟨i, hi, hie⟩ := List.mem_iff_getElem.mp hm
      obtain ⟨j, hj, hje⟩ := List.mem_iff_getElem.mp h2
      have hd := List.pairwise_iff_getElem.mp h1.distinct
      rcases Nat.lt_trichotomy i j with hh | hh | hh
      · have := hd i j hi hj hh; rw [hie, hje] at this; exact this e
      · subst hh; rw [hie] at hje; rw [hje] at hp; exact hne hp.symm
      · have := hd j i hj hi hh; rw [hie, hje] at this; exact this e.symm
    · intro e
      have := mem_unique h1.sorted hm h2 (by simp only; omega)
      rw [this]
  funext n
  have hv := h3 n
  unfold view at hv ⊢
  simp only
  unfold spec
  by_cases e : n = c.1
  · subst e
    rw [Function.update_self]
    rw [if_pos rfl] at hv
    cases hc : r.1.list.find? (fun x => decide (x.1 = c.1)) with
    | none => rw [hc] at hv; simp at hv
    | some x =>
      rw [hc] at hv
      have hx := (hfind _ x hc).mpr rfl
      simp only [Option.map_some, Option.some.injEq] at hv ⊢
      rw [hx, Function.update_self, ← hx, hv]
  · rw [Function.update_of_ne e]
    rw [if_neg e] at hv
    show _ = view w n
    unfold view
    rw [← hv]
    cases hc : r.1.list.find? (fun x => decide (x.1 = n)) with
    | none => rfl
    | some x =>
      have hx : x.2 ≠ r.2 := fun h => e ((hfind n x hc).mp h)
      simp only [Option.map_some]
      rw [Function.update_of_ne hx]

/-! ### C38 -/

/-- The library at start. -/
def start (heap : ℕ → S) : World S := ⟨[], heap, 0⟩

/-- For every sequence of calls the library behaves as if it had one state per node number: a call changes the state of its
node only, the first call for a node starts from a fresh state, later ones from the state the last one left. -/
theorem C38_isolated (fresh : S) (heap : ℕ → S) (calls : List (ℤ × (S → S))) (hn : ∀ c ∈ calls, Ok c.1) :
    view (calls.foldl (call fresh) (start heap)) = calls.foldl (spec fresh) (fun _ => none) := by
  have : ∀ calls : List (ℤ × (S → S)), (∀ c ∈ calls, Ok c.1) →
      Inv (calls.foldl (call fresh) (start heap)) ∧
      view (calls.foldl (call fresh) (start heap)) = calls.foldl (spec fresh) (fun _ => none) := by
    intro calls
    induction calls using List.reverseRecOn with
    | nil =>
      intro _
      refine ⟨⟨fun x hx => ?_, List.Pairwise.nil, fun x hx => ?_, List.Pairwise.nil⟩, rfl⟩ <;> simp [start] at hx
    | append_singleton calls c ih =>
      intro hc
      obtain ⟨i1, i2⟩ := ih fun x hx => hc x (by simp [hx])
      simp only [List.foldl_append, List.foldl_cons, List.foldl_nil]
      obtain ⟨j1, j2⟩ := call_spec fresh _ i1 c (hc c (by simp))
      exact ⟨j1, by rw [j2, i2]⟩
  exact (this calls hn).2

/-- In particular, calls for other nodes leave a node alone ... -/
theorem C38_other_nodes (fresh : S) (heap : ℕ → S) (before after : List (ℤ × (S → S))) (node : ℤ)
    (hb : ∀ c ∈ before, Ok c.1) (ha : ∀ c ∈ after, Ok c.1 ∧ c.1 ≠ node) :
    view ((before ++ after).foldl (call fresh) (start heap)) node = view (before.foldl (call fresh) (start heap)) node := by
  rw [C38_isolated fresh heap _ (fun c hc => by
    rcases List.mem_append.mp hc with h | h
    · exact hb c h
    · exact (ha c h).1), C38_isolated fresh heap _ hb, List.foldl_append]
  generalize before.foldl (spec fresh) (fun _ => none) = m
  clear hb
  induction after generalizing m with
  | nil => rfl
  | cons c after ih =>
    rw [List.foldl_cons, ih (fun x hx => ha x (by simp [hx]))]
    exact Function.update_of_ne (Ne.symm (ha c (by simp)).2) _ _

/-- ... and the order in which nodes are worked on does not matter. -/
theorem C38_order (fresh : S) (heap : ℕ → S) (calls calls' : List (ℤ × (S → S))) (hn : ∀ c ∈ calls, Ok c.1)
    (hn' : ∀ c ∈ calls', Ok c.1) (h : ∀ n, calls.filter (fun c => c.1 = n) = calls'.filter (fun c => c.1 = n)) :
    view (calls.foldl (call fresh) (start heap)) = view (calls'.foldl (call fresh) (start heap)) := by
  have key : ∀ (l : List (ℤ × (S → S))) (m : ℤ → Option S) (n : ℤ),
      l.foldl (spec fresh) m n = (l.filter fun c => c.1 = n).foldl (spec fresh) m n := by
    intro l
    induction l using List.reverseRecOn with
    | nil => intro m n; rfl
    | append_singleton l c ih =>
      intro m n
      rw [List.foldl_append, List.filter_append]
      simp only [List.foldl_cons, List.foldl_nil]
      by_cases e : c.1 = n
      · subst e
        simp only [List.foldl_append, decide_true, List.filter_cons_of_pos, List.filter_nil, List.foldl_cons, List.foldl_nil]
        unfold spec
        rw [Function.update_self, Function.update_self]
        have := ih m c.1
        unfold spec at this
        rw [this]
      · rw [List.filter_cons_of_neg (by simpa using e)]
        simp only [List.filter_nil, List.append_nil]
        rw [← ih m n]
        exact Function.update_of_ne (Ne.symm e) _ _
  rw [C38_isolated fresh heap _ hn, C38_isolated fresh heap _ hn']
  funext n
  rw [key calls, key calls', h n]

/-- Node numbers far apart overflow the comparison: it is then not even an order. -/
theorem C38_overflow : compareNodes 0 1500000000 < 0 ∧ compareNodes 1500000000 (-1500000000) < 0 ∧
    compareNodes (-1500000000) 0 < 0 := by decide

/-! ### Concrete cases -/

def exCalls : List (ℤ × (ℕ → ℕ)) := [(7, (· + 1)), (3, (· + 10)), (5, (· + 100)), (3, (· * 2)), (7, (· + 1))]

example : ∀ c ∈ exCalls, Ok c.1 := by
  intro c hc
  simp only [exCalls, List.mem_cons, List.not_mem_nil, or_false] at hc
  rcases hc with h | h | h | h | h <;> subst h <;> unfold Ok <;> simp
example : (exCalls.foldl (spec 0) (fun _ => none)) 3 = some 20 ∧ (exCalls.foldl (spec 0) (fun _ => none)) 7 = some 2 ∧
    (exCalls.foldl (spec 0) (fun _ => none)) 4 = none := by decide

end Magma.Lib.Nodes
