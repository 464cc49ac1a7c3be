import Mathlib.Order.Lattice
import Mathlib.Data.List.Basic
import Mathlib.Data.List.GetD
import Mathlib.Order.MinMax
import Verif.Iface.Suppress

/-!
`meltssetsystemproperty_` (/repo/sources/library.c 1293-1384): the strings with which a program that uses the library sets the
oxygen-fugacity path, suppresses a phase and switches fractionation.

`line` is an uninitialised array on the stack of which the first `len` characters are then set: what lies behind is arbitrary,
and so a parameter of the model.
-/

namespace Magma.Lib.Strings

open Magma.Iface.Suppress

/-- A literal (or another C string) as memory: its characters, then the terminating NUL (and whatever: `strncmp` never
looks further). -/
def mem (s : List Char) (i : ℕ) : Char := s.getD i '\x00'

/-- `!strncmp(a, b, n)`: equal in the first `n` characters, or up to a NUL in both. -/
def strncmpEq : ℕ → (ℕ → Char) → (ℕ → Char) → Bool
  | 0, _, _ => true
  | n + 1, a, b => a 0 == b 0 && (a 0 == '\x00' || strncmpEq n (fun i => a (i + 1)) fun i => b (i + 1))

/-- `MIN(len-k, m)` is an `int`, and the argument of `strncmp` a `size_t`: a negative value becomes a huge one. -/
def count (len k m : ℕ) : ℕ := if k ≤ len then min (len - k) m else 2 ^ 64 - (k - len)

/-- `!strncmp(&line[k], lit, MIN(len-k, m))` -/
def at_ (line : ℕ → Char) (len k : ℕ) (lit : List Char) (m : ℕ) : Bool :=
  strncmpEq (count len k m) (fun i => line (k + i)) (mem lit)

/-- `tolower` of the C locale. -/
def lower (c : Char) : Char := c.toLower

/-- library.c 1321: `for (i=0; i<MIN(len, REC); i++) line[i] = tolower(property[i]);` with `REC` 134. -/
def fillLine (garbage : ℕ → Char) (property : List Char) (i : ℕ) : Char :=
  if i < min property.length 134 then lower (mem property i) else garbage i

/-- The fields of the state concerned. -/
structure State where
  fo2Path : ℕ := 0
  inc : Inc := fun _ => true
  fracSol : Bool := false
  fracLiq : Bool := false
  fracFlu : Bool := false

/-- library.c 1325-1344 with the numbers of /repo/includes/silmin.h 637-656: literal, compared length, path. -/
def paths : List (String × ℕ × ℕ) :=
  [("none", 4, 0), ("fmq", 3, 3), ("coh", 3, 4), ("nno", 3, 2), ("iw", 2, 5), ("hm", 2, 1), ("+3fmq", 5, 6), ("+2fmq", 5, 7),
   ("+1fmq", 5, 8), ("-1fmq", 5, 9), ("-2fmq", 5, 10), ("-3fmq", 5, 11), ("-4fmq", 5, 12), ("-5fmq", 5, 13),
   ("-6fmq", 5, 14), ("-7fmq", 5, 15), ("-8fmq", 5, 16), ("-9fmq", 5, 17), ("+0.5fmq", 5, 18), ("+1.5fmq", 5, 19)]

/-- The chain of `else if` of 1325-1344. -/
def findPath (line : ℕ → Char) (len : ℕ) : List (String × ℕ × ℕ) → Option ℕ
  | [] => none
  | (s, m, p) :: r => if at_ line len 14 s.toList m then some p else findPath line len r

/-- library.c 1357-1369: first PHASE row whose label is exactly the rest of the line. -/
def suppressPhase (line : ℕ → Char) (len : ℕ) : List Solid → ℕ → Inc → Inc
  | [], _, inc => inc
  | s :: r, j, inc =>
    if s.isPhase then
      if len = 10 + s.label.length ∧ strncmpEq s.label.length (fun i => line (10 + i)) (mem s.label) = true then
        if s.usable then Function.update inc j false else inc
      else suppressPhase line len r (j + 1) inc
    else suppressPhase line len r j inc

/-- library.c 1373-1383. Note the `&line[10]` of the last branch, where the others have `&line[6]`. -/
def setMode (line : ℕ → Char) (len : ℕ) (s : State) : State :=
  if at_ line len 6 "fractionate solids".toList 18 then { s with fracSol := true }
  else if at_ line len 6 "fractionate liquids".toList 19 then { s with fracLiq := true }
  else if at_ line len 6 "fractionate fluids".toList 18 then { s with fracFlu := true }
  else if at_ line len 10 "fractionate none".toList 18 then { s with fracSol := false, fracLiq := false, fracFlu := false }
  else s

/-- library.c 1321-1384, for a line of `len` characters. -/
def setLine (T : List Solid) (line : ℕ → Char) (len : ℕ) (s : State) : State :=
  if at_ line len 0 "log fo2 path: ".toList 14 then
    match findPath line len paths with
    | some p => { s with fo2Path := p }
    | none => s
  else if at_ line len 0 "suppress: ".toList 10 then
    if at_ line len 10 "none".toList 4 then
      { s with inc := Function.update (fill (fun _ => true) T 0 0 s.inc) T.length true }
    else if at_ line len 10 "liquid".toList 6 then { s with inc := Function.update s.inc T.length false }
    else { s with inc := suppressPhase line len T 0 s.inc }
  else if at_ line len 0 "mode: ".toList 6 then setMode line len s
  else s

/-- library.c 1293-1384, for the state of the node. -/
def setProperty (T : List Solid) (garbage : ℕ → Char) (property : List Char) (s : State) : State :=
  setLine T (fillLine garbage property) property.length s

/-! ### Comparing -/

theorem strncmp_lit (a : ℕ → Char) (lit : List Char) (n : ℕ) (hn : n ≤ lit.length) (h0 : '\x00' ∉ lit) :
    strncmpEq n a (mem lit) = true ↔ ∀ i < n, a i = mem lit i := by
  induction n generalizing a lit with
  | zero => simp [strncmpEq]
  | succ n ih =>
    cases lit with
    | nil => simp at hn
    | cons c lit =>
      have hc : c ≠ '\x00' := fun h => h0 (by simp [h])
      have e : (fun i => mem (c :: lit) (i + 1)) = mem lit := by funext i; simp [mem]
      unfold strncmpEq
      rw [e]
      have := ih (fun i => a (i + 1)) lit (by simpa using hn) (fun h => h0 (by simp [h]))
      simp only [Bool.and_eq_true, beq_iff_eq, Bool.or_eq_true]
      constructor
      · rintro ⟨h1, h2⟩ i hi
        cases i with
        | zero => exact h1
        | succ i =>
          rcases h2 with h2 | h2
          · rw [h1] at h2; exact absurd h2 hc
          · exact (this.mp h2) i (by omega)
      · intro h
        refine ⟨h 0 (by omega), Or.inr (this.mpr fun i hi => ?_)⟩
        have := h (i + 1) (by omega)
        simpa [mem] using this

/-- The NULs after the literal do not help: comparing more characters than the literal has demands more. -/
theorem strncmp_ge (a : ℕ → Char) (b : ℕ → Char) (n i : ℕ) (hi : i < n) (h : strncmpEq n a b = true)
    (hne : ∀ j < i, a j ≠ '\x00') : a i = b i := by
  induction i generalizing n a b with
  | zero =>
    obtain ⟨m, rfl⟩ : ∃ m, n = m + 1 := ⟨n - 1, by omega⟩
    unfold strncmpEq at h
    simp only [Bool.and_eq_true, beq_iff_eq] at h
    exact h.1
  | succ i ih =>
    obtain ⟨m, rfl⟩ : ∃ m, n = m + 1 := ⟨n - 1, by omega⟩
    unfold strncmpEq at h
    simp only [Bool.and_eq_true, beq_iff_eq, Bool.or_eq_true] at h
    rcases h.2 with h2 | h2
    · exact absurd h2 (hne 0 (by omega))
    · exact ih (fun i => a (i + 1)) (fun i => b (i + 1)) m (by omega) h2 fun j hj => hne (j + 1) (by omega)

theorem fillLine_lt (g : ℕ → Char) (p : List Char) (i : ℕ) (h : i < p.length) (h' : i < 134) :
    fillLine g p i = lower (mem p i) := by
  unfold fillLine
  rw [if_pos (by omega)]

theorem mem_append (a b : List Char) (i : ℕ) :
    mem (a ++ b) i = if i < a.length then mem a i else mem b (i - a.length) := by
  unfold mem
  by_cases h : i < a.length
  · rw [if_pos h]; simp [List.getD, List.getElem?_append, h]
  · rw [if_neg h]; simp [List.getD, List.getElem?_append, h]

/-- How a comparison at `k` with a literal goes for a string written with keyword `w` (of `k` characters) and value `v`. -/
theorem at_value (g : ℕ → Char) (w v lit : List Char) (m : ℕ) (hm : m ≤ lit.length) (h0 : '\x00' ∉ lit)
    (hl : w.length + v.length ≤ 134) :
    at_ (fillLine g (w ++ v)) (w ++ v).length w.length lit m = true ↔
      (v.map lower).take m = lit.take (min v.length m) := by
  unfold at_ count
  rw [if_pos (by simp)]
  have e : (w ++ v).length - w.length = v.length := by simp
  rw [e, strncmp_lit _ _ _ (by omega) h0]
  constructor
  · intro h
    apply List.ext_getElem
    · simp; omega
    · intro i h1 h2
      simp only [List.length_take, List.length_map] at h1 h2
      have := h i (by omega)
      rw [fillLine_lt _ _ _ (by simp; omega) (by omega), mem_append, if_neg (by omega)] at this
      rw [List.getElem_take, List.getElem_take, List.getElem_map]
      have e1 : mem v (w.length + i - w.length) = v[i]'(by omega) := by
        unfold mem; rw [show w.length + i - w.length = i by omega]
        exact List.getD_eq_getElem _ _ _
      have e2 : mem lit i = lit[i]'(by omega) := List.getD_eq_getElem _ _ _
      rw [e1, e2] at this
      exact this
  · intro h i hi
    rw [fillLine_lt _ _ _ (by simp; omega) (by omega), mem_append, if_neg (by omega),
      show w.length + i - w.length = i by omega]
    have h1 := congrArg (fun l => l[i]?) h
    simp only [List.getElem?_take, List.getElem?_map] at h1
    rw [if_pos (by omega), if_pos (by omega)] at h1
    have e1 : v[i]? = some (mem v i) := by
      unfold mem; rw [List.getElem?_eq_getElem (by omega)]; exact congrArg some (List.getD_eq_getElem _ _ _).symm
    have e2 : lit[i]? = some (mem lit i) := by
      unfold mem; rw [List.getElem?_eq_getElem (by omega)]; exact congrArg some (List.getD_eq_getElem _ _ _).symm
    rw [e1, e2] at h1
    simpa using h1


/-- The keyword itself is recognised in any case of letters. -/
theorem at_keyword (g : ℕ → Char) (w v : List Char) (kw : String) (hw : w.map lower = kw.toList) (h0 : '\x00' ∉ kw.toList)
    (hl : w.length + v.length ≤ 134) : at_ (fillLine g (w ++ v)) (w ++ v).length 0 kw.toList kw.toList.length = true := by
  have := at_value g [] (w ++ v) kw.toList kw.toList.length (by omega) h0 (by simpa using hl)
  rw [List.nil_append] at this
  rw [show (0 : ℕ) = ([] : List Char).length from rfl, this]
  have hlen : w.length = kw.toList.length := by rw [← hw]; simp
  rw [List.map_append, hw]
  simp [hlen]

/-- ... and not taken for another. -/
theorem at_other (g : ℕ → Char) (w v : List Char) (kw lit : String) (hw : w.map lower = kw.toList)
    (h0 : '\x00' ∉ lit.toList) (hl : w.length + v.length ≤ 134) (k : ℕ) (hk : k < kw.toList.length) (hk' : k < lit.toList.length)
    (hd : kw.toList[k]? ≠ lit.toList[k]?) :
    at_ (fillLine g (w ++ v)) (w ++ v).length 0 lit.toList lit.toList.length = false := by
  have := at_value g [] (w ++ v) lit.toList lit.toList.length (by omega) h0 (by simpa using hl)
  rw [List.nil_append] at this
  rw [show (0 : ℕ) = ([] : List Char).length from rfl, Bool.eq_false_iff, ne_eq, this]
  intro h
  apply hd
  have hlen : w.length = kw.toList.length := by rw [← hw]; simp
  have h1 := congrArg (fun l => l[k]?) h
  simp only [List.getElem?_take] at h1
  rw [if_pos hk', if_pos (by simp; omega), List.map_append, hw, List.getElem?_append_left hk] at h1
  exact h1

/-! ### C40 -/

/-- What follows the keyword: the part of the line that counts. -/
def Value (w v : List Char) (kw : String) : Prop := w.map lower = kw.toList ∧ w.length + v.length ≤ 134

/-- The switches a value of 'mode: ' asks for, as documented: the first eighteen (nineteen) letters say which. -/
inductive Wish | solids | liquids | fluids | other
  deriving DecidableEq

def wish (v : List Char) : Wish :=
  let l := v.map lower
  if l.take 18 = "fractionate solids".toList then .solids
  else if l.take 19 = "fractionate liquids".toList then .liquids
  else if l.take 18 = "fractionate fluids".toList then .fluids
  else .other

theorem setProperty_mode (T : List Solid) (g : ℕ → Char) (w v : List Char) (hv : Value w v "mode: ") (s : State) :
    setProperty T g (w ++ v) s = setMode (fillLine g (w ++ v)) (w ++ v).length s := by
  unfold setProperty setLine
  have a := at_other g w v "mode: " "log fo2 path: " hv.1 (by decide) hv.2 0 (by decide) (by decide) (by decide)
  have b := at_other g w v "mode: " "suppress: " hv.1 (by decide) hv.2 0 (by decide) (by decide) (by decide)
  have c := at_keyword g w v "mode: " hv.1 (by decide) hv.2
  rw [show (14 : ℕ) = "log fo2 path: ".toList.length from by decide, a,
    show (10 : ℕ) = "suppress: ".toList.length from by decide, b, show (6 : ℕ) = "mode: ".toList.length from by decide, c]
  simp

/-- 'mode: fractionate solids', 'liquids' or 'fluids' switches on the named one and leaves the other two, whatever the state
and the case of the letters. -/
theorem C40_switch_on (T : List Solid) (g : ℕ → Char) (w v : List Char) (hv : Value w v "mode: ") (s : State) :
    (wish v = .solids → setProperty T g (w ++ v) s = { s with fracSol := true }) ∧
    (wish v = .liquids → setProperty T g (w ++ v) s = { s with fracLiq := true }) ∧
    (wish v = .fluids → setProperty T g (w ++ v) s = { s with fracFlu := true }) := by
  rw [setProperty_mode T g w v hv s]
  have hw6 : w.length = 6 := by have := congrArg List.length hv.1; simpa using this
  have e1 := at_value g w v "fractionate solids".toList 18 (by decide) (by decide) hv.2
  have e2 := at_value g w v "fractionate liquids".toList 19 (by decide) (by decide) hv.2
  have e3 := at_value g w v "fractionate fluids".toList 18 (by decide) (by decide) hv.2
  rw [hw6] at e1 e2 e3
  have full : ∀ (lit : String) (m : ℕ), (v.map lower).take m = lit.toList → lit.toList.length = m → v.length ≥ m := by
    intro lit m h h'
    have := congrArg List.length h
    simp at this h'; omega
  refine ⟨fun h => ?_, fun h => ?_, fun h => ?_⟩
  · have h1 : (v.map lower).take 18 = "fractionate solids".toList := by
      unfold wish at h; simp only at h
      by_contra hc; rw [if_neg hc] at h
      split_ifs at h
    have hl := full _ _ h1 (by decide)
    unfold setMode
    rw [if_pos (e1.mpr (by rw [h1, min_eq_right hl]; decide))]
  · have h1 : (v.map lower).take 19 = "fractionate liquids".toList := by
      unfold wish at h; simp only at h
      by_contra hc; rw [if_neg hc] at h
      split_ifs at h
    have hl := full _ _ h1 (by decide)
    have h18 : (v.map lower).take 18 = "fractionate liquid".toList := by
      have := congrArg (List.take 18) h1
      rw [List.take_take] at this
      rw [show min 18 19 = 18 from rfl] at this
      rw [this]; decide
    unfold setMode
    rw [if_neg (by rw [e1, h18, min_eq_right (by omega)]; decide), if_pos (e2.mpr (by rw [h1, min_eq_right hl]; decide))]
  · have h1 : (v.map lower).take 18 = "fractionate fluids".toList := by
      unfold wish at h; simp only at h
      by_contra hc
      split_ifs at h <;> contradiction
    have hl := full _ _ h1 (by decide)
    have h19 : (v.map lower).take 19 ≠ "fractionate liquids".toList.take (min v.length 19) := by
      intro hc
      have := congrArg (List.take 18) hc
      rw [List.take_take, List.take_take, show min 18 19 = 18 from rfl, h1, show min 18 (min v.length 19) = 18 by omega] at this
      revert this; decide
    unfold setMode
    rw [if_neg (by rw [e1, h1, min_eq_right (by omega)]; decide), if_neg (by rw [e2]; exact h19),
      if_pos (e3.mpr (by rw [h1, min_eq_right hl]; decide))]

/-- 'mode: fractionate none' leaves the state as it was: fractionation once switched on cannot be switched off by the string
that is there to do so. -/
theorem C40_none_ignored (T : List Solid) (g : ℕ → Char) (w v : List Char) (hv : Value w v "mode: ") (s : State)
    (hn : (v.map lower).take 16 = "fractionate none".toList) : setProperty T g (w ++ v) s = s := by
  rw [setProperty_mode T g w v hv s]
  have hw6 : w.length = 6 := by have := congrArg List.length hv.1; simpa using this
  have e1 := at_value g w v "fractionate solids".toList 18 (by decide) (by decide) hv.2
  have e2 := at_value g w v "fractionate liquids".toList 19 (by decide) (by decide) hv.2
  have e3 := at_value g w v "fractionate fluids".toList 18 (by decide) (by decide) hv.2
  rw [hw6] at e1 e2 e3
  have hl : 16 ≤ v.length := by have := congrArg List.length hn; simp at this; omega
  have no : ∀ (m : ℕ) (lit : List Char), 16 ≤ m → lit.take 16 ≠ "fractionate none".toList →
      ¬ (v.map lower).take m = lit.take (min v.length m) := by
    intro m lit hm hne h
    have := congrArg (List.take 16) h
    rw [List.take_take, List.take_take, show min 16 m = 16 by omega, show min 16 (min v.length m) = 16 by omega, hn] at this
    exact hne this.symm
  unfold setMode
  rw [if_neg (by rw [e1]; exact no 18 _ (by omega) (by decide)), if_neg (by rw [e2]; exact no 19 _ (by omega) (by decide)),
    if_neg (by rw [e3]; exact no 18 _ (by omega) (by decide)), if_neg]
  -- at position 10 of the line there is the 't' of 'fractionate'
  intro h
  unfold at_ at h
  have h0 := strncmp_ge _ _ _ 0 (by unfold count; rw [if_pos (by simp; omega)]; simp; omega) h (by simp)
  rw [fillLine_lt _ _ _ (by simp; omega) (by omega), mem_append, if_neg (by omega), hw6] at h0
  have h4 := congrArg (fun l => l[4]?) hn
  simp only [List.getElem?_take, List.getElem?_map] at h4
  rw [if_pos (by omega), List.getElem?_eq_getElem (by omega)] at h4
  have e : mem v (10 + 0 - 6) = v[4]'(by omega) := List.getD_eq_getElem _ _ _
  rw [e] at h0
  rw [Option.map_some, show lower (v[4]'(by omega)) = mem "fractionate none".toList 0 from h0] at h4
  revert h4; decide

/-- What does switch it off are four arbitrary characters in between (or instead). -/
theorem C40_off (T : List Solid) (g : ℕ → Char) (w v : List Char) (hv : Value w v "mode: ") (s : State)
    (h4 : (v.map lower).drop 4 = "fractionate none".toList) (hc : (v.map lower).take 4 ≠ "frac".toList) :
    setProperty T g (w ++ v) s = { s with fracSol := false, fracLiq := false, fracFlu := false } := by
  rw [setProperty_mode T g w v hv s]
  have hw6 : w.length = 6 := by have := congrArg List.length hv.1; simpa using this
  have e1 := at_value g w v "fractionate solids".toList 18 (by decide) (by decide) hv.2
  have e2 := at_value g w v "fractionate liquids".toList 19 (by decide) (by decide) hv.2
  have e3 := at_value g w v "fractionate fluids".toList 18 (by decide) (by decide) hv.2
  rw [hw6] at e1 e2 e3
  have hl : v.length = 20 := by
    have := congrArg List.length h4
    rw [List.length_drop, List.length_map, show "fractionate none".toList.length = 16 from by decide] at this; omega
  have no : ∀ (m : ℕ) (lit : List Char), 4 ≤ m → lit.take 4 = "frac".toList →
      ¬ (v.map lower).take m = lit.take (min v.length m) := by
    intro m lit hm he h
    have := congrArg (List.take 4) h
    rw [List.take_take, List.take_take, show min 4 m = 4 by omega, show min 4 (min v.length m) = 4 by omega, he] at this
    exact hc this
  unfold setMode
  rw [if_neg (by rw [e1]; exact no 18 _ (by omega) (by decide)), if_neg (by rw [e2]; exact no 19 _ (by omega) (by decide)),
    if_neg (by rw [e3]; exact no 18 _ (by omega) (by decide)), if_pos]
  unfold at_ count
  rw [if_pos (by simp; omega), show min ((w ++ v).length - 10) 18 = 16 by simp; omega,
    strncmp_lit _ _ _ (by decide) (by decide)]
  intro i hi
  rw [fillLine_lt _ _ _ (by simp; omega) (by omega), mem_append, if_neg (by omega), hw6]
  have hx := congrArg (fun l => l[i]?) h4
  simp only [List.getElem?_drop, List.getElem?_map] at hx
  rw [List.getElem?_eq_getElem (by omega), Option.map_some] at hx
  have ev : mem v (10 + i - 6) = v[4 + i]'(by omega) := by
    rw [show 10 + i - 6 = 4 + i by omega]; exact List.getD_eq_getElem _ _ _
  have el : "fractionate none".toList[i]? = some (mem "fractionate none".toList i) := by
    unfold mem
    rw [List.getElem?_eq_getElem (by simpa using hi)]; exact congrArg some (List.getD_eq_getElem _ _ _).symm
  rw [el] at hx
  rw [ev]
  exact Option.some.inj hx

/-! ### The oxygen-fugacity path -/

theorem setProperty_path (T : List Solid) (g : ℕ → Char) (w v : List Char) (hv : Value w v "log fo2 path: ") (s : State) :
    setProperty T g (w ++ v) s =
      match findPath (fillLine g (w ++ v)) (w ++ v).length paths with
      | some p => { s with fo2Path := p }
      | none => s := by
  unfold setProperty setLine
  have c := at_keyword g w v "log fo2 path: " hv.1 (by decide) hv.2
  rw [show (14 : ℕ) = "log fo2 path: ".toList.length from by decide, c]
  simp

/-- The path a value names: the first entry of the table it begins with. -/
def named (v : List Char) : Option ℕ :=
  (paths.find? fun e => (v.map lower).take e.2.1 = e.1.toList.take (min v.length e.2.1)).map fun e => e.2.2

theorem findPath_eq (g : ℕ → Char) (w v : List Char) (hw : w.length = 14) (hl : w.length + v.length ≤ 134)
    (ps : List (String × ℕ × ℕ)) (hp : ∀ e ∈ ps, e.2.1 ≤ e.1.toList.length ∧ '\x00' ∉ e.1.toList) :
    findPath (fillLine g (w ++ v)) (w ++ v).length ps =
      (ps.find? fun e => (v.map lower).take e.2.1 = e.1.toList.take (min v.length e.2.1)).map fun e => e.2.2 := by
  induction ps with
  | nil => rfl
  | cons e ps ih =>
    obtain ⟨lit, m, p⟩ := e
    have he := hp (lit, m, p) (by simp)
    have hv := at_value g w v lit.toList m he.1 he.2 hl
    rw [hw] at hv
    unfold findPath
    rw [List.find?_cons]
    by_cases h : (v.map lower).take m = lit.toList.take (min v.length m)
    · rw [if_pos (hv.mpr h)]; simp [h]
    · rw [if_neg (fun hc => h (hv.mp hc)), ih fun e he => hp e (by simp [he])]; simp [h]

/-- A path string sets the path its value names, and nothing else. -/
theorem C40_path (T : List Solid) (g : ℕ → Char) (w v : List Char) (hv : Value w v "log fo2 path: ") (s : State) :
    setProperty T g (w ++ v) s = { s with fo2Path := (named v).getD s.fo2Path } := by
  have hw : w.length = 14 := by have := congrArg List.length hv.1; simpa using this
  rw [setProperty_path T g w v hv s, findPath_eq g w v hw hv.2 paths (by decide)]
  show (match named v with | some p => _ | none => _) = _
  cases named v with
  | none => rfl
  | some p => rfl

/-- Every name of the table, in full, gives its own path. -/
theorem C40_path_names : ∀ e ∈ paths, named e.1.toList = some e.2.2 := by decide

/-- The documented value 'qfm' and the documented string 'log fo2 delta: ...' are not understood: they change nothing. -/
theorem C40_qfm_ignored (T : List Solid) (g : ℕ → Char) (w v : List Char) (hv : Value w v "log fo2 path: ")
    (hq : v.map lower = "qfm".toList) (s : State) : setProperty T g (w ++ v) s = s := by
  have hl : v.length = 3 := by have := congrArg List.length hq; simpa using this
  rw [C40_path T g w v hv s]
  have : named v = none := by
    unfold named
    rw [hq, hl]
    decide
  rw [this]; rfl

theorem C40_delta_ignored (T : List Solid) (g : ℕ → Char) (w v : List Char) (hv : Value w v "log fo2 delta: ") (s : State) :
    setProperty T g (w ++ v) s = s := by
  unfold setProperty setLine
  have a := at_other g w v "log fo2 delta: " "log fo2 path: " hv.1 (by decide) hv.2 8 (by decide) (by decide) (by decide)
  have b := at_other g w v "log fo2 delta: " "suppress: " hv.1 (by decide) hv.2 0 (by decide) (by decide) (by decide)
  have c := at_other g w v "log fo2 delta: " "mode: " hv.1 (by decide) hv.2 0 (by decide) (by decide) (by decide)
  rw [show (14 : ℕ) = "log fo2 path: ".toList.length from by decide, a,
    show (10 : ℕ) = "suppress: ".toList.length from by decide, b, show (6 : ℕ) = "mode: ".toList.length from by decide, c]
  simp

/-! ### Suppressing -/

theorem setProperty_suppress (T : List Solid) (g : ℕ → Char) (w v : List Char) (hv : Value w v "suppress: ") (s : State) :
    setProperty T g (w ++ v) s =
      if at_ (fillLine g (w ++ v)) (w ++ v).length 10 "none".toList 4 then
        { s with inc := Function.update (fill (fun _ => true) T 0 0 s.inc) T.length true }
      else if at_ (fillLine g (w ++ v)) (w ++ v).length 10 "liquid".toList 6 then
        { s with inc := Function.update s.inc T.length false }
      else { s with inc := suppressPhase (fillLine g (w ++ v)) (w ++ v).length T 0 s.inc } := by
  unfold setProperty setLine
  have a := at_other g w v "suppress: " "log fo2 path: " hv.1 (by decide) hv.2 0 (by decide) (by decide) (by decide)
  have c := at_keyword g w v "suppress: " hv.1 (by decide) hv.2
  rw [show (14 : ℕ) = "log fo2 path: ".toList.length from by decide, a]
  rw [show at_ (fillLine g (w ++ v)) (w ++ v).length 0 "suppress: ".toList 10 = true from c]
  simp

/-- Position in the table of the first phase with a label. -/
def firstNamed (l : List Char) (T : List Solid) : ℕ := T.findIdx fun s => s.isPhase && decide (s.label = l)

theorem label_match (g : ℕ → Char) (w v : List Char) (hw : w.length = 10) (hl : w.length + v.length ≤ 134)
    (s : Solid) (h0 : '\x00' ∉ s.label) :
    ((w ++ v).length = 10 + s.label.length ∧
      strncmpEq s.label.length (fun i => fillLine g (w ++ v) (10 + i)) (mem s.label) = true) ↔ s.label = v.map lower := by
  have hv := at_value g w v s.label s.label.length (Nat.le_refl _) h0 hl
  unfold at_ count at hv
  rw [hw, if_pos (by simp; omega)] at hv
  constructor
  · rintro ⟨h1, h2⟩
    simp only [List.length_append, hw] at h1
    have e : (w ++ v).length - 10 = s.label.length := by simp; omega
    rw [e, min_self] at hv
    have := hv.mp h2
    rw [show min v.length s.label.length = s.label.length by omega, List.take_length,
      List.take_of_length_le (by simp; omega)] at this
    exact this.symm
  · intro h
    have hlen : s.label.length = v.length := by rw [h]; simp
    refine ⟨by simp; omega, ?_⟩
    have e : (w ++ v).length - 10 = s.label.length := by simp; omega
    rw [e, min_self] at hv
    refine hv.mpr ?_
    rw [show min v.length s.label.length = s.label.length by omega, List.take_length,
      List.take_of_length_le (by simp; omega), h]

theorem suppress_admitted (g : ℕ → Char) (w v : List Char) (hw : w.length = 10) (hl : w.length + v.length ≤ 134) :
    ∀ (T : List Solid) (_ : ∀ s ∈ T, '\x00' ∉ s.label) (i j : ℕ) (inc : Inc) (x : ℕ),
      x ∈ admitted (suppressPhase (fillLine g (w ++ v)) (w ++ v).length T j inc) T i j ↔
        x ∈ admitted inc T i j ∧ ¬ (x = i + firstNamed (v.map lower) T ∧ ∃ s, T[x - i]? = some s ∧ s.usable = true)
  | [], _, i, j, inc, x => by simp [admitted]
  | s :: r, h0, i, j, inc, x => by
    have ih := fun i' j' inc' => suppress_admitted g w v hw hl r (fun s hs => h0 s (by simp [hs])) i' j' inc' x
    have hm := label_match g w v hw hl s (h0 s (by simp))
    have lower_bound : ∀ (inc : Inc) (T : List Solid) (i j x : ℕ), x ∈ admitted inc T i j → i ≤ x := by
      intro inc T
      induction T with
      | nil => intro i j x h; simp [admitted] at h
      | cons s r ih =>
        intro i j x h
        unfold admitted at h
        split_ifs at h
        · simp at h; rcases h with h | h
          · omega
          · have := ih _ _ _ h; omega
        · simp at h; have := ih _ _ _ h; omega
        · have := ih _ _ _ h; omega
    have frame : ∀ (T : List Solid) (j k : ℕ) (inc : Inc), k < j →
        suppressPhase (fillLine g (w ++ v)) (w ++ v).length T j inc k = inc k := by
      intro T
      induction T with
      | nil => intro j k inc _; rfl
      | cons s r ih =>
        intro j k inc hk
        unfold suppressPhase
        split_ifs
        · exact Function.update_of_ne (by omega) _ _
        · rfl
        · exact ih _ _ _ (by omega)
        · exact ih _ _ _ hk
    have shift : ∀ i', i' = i + 1 → x ∈ admitted inc r i' (if s.isPhase then j + 1 else j) →
        ((x = i' + firstNamed (v.map lower) r ∧ ∃ s, r[x - i']? = some s ∧ s.usable = true) ↔
         (x = i + (firstNamed (v.map lower) r + 1) ∧ ∃ t, (s :: r)[x - i]? = some t ∧ t.usable = true)) := by
      intro i' hi' hx
      subst hi'
      have := lower_bound _ _ _ _ _ hx
      rw [show x - i = (x - (i + 1)) + 1 by omega, List.getElem?_cons_succ]
      constructor
      · rintro ⟨a, b⟩; exact ⟨by omega, b⟩
      · rintro ⟨a, b⟩; exact ⟨by omega, b⟩
    by_cases hp : s.isPhase = true
    · unfold suppressPhase admitted
      simp only [hp, if_true]
      by_cases hmm : s.label = v.map lower
      · have fz : firstNamed (v.map lower) (s :: r) = 0 := by
          unfold firstNamed; rw [List.findIdx_cons]; simp [hp, hmm]
        rw [if_pos (hm.mpr hmm), fz]
        by_cases hu : s.usable = true
        · rw [if_pos hu, Function.update_self]
          simp only [Bool.false_eq_true, if_false, List.nil_append]
          rw [admitted_congr (inc' := inc) r (i + 1) (j + 1) fun k h1 h2 => Function.update_of_ne (by omega) _ _]
          rw [List.mem_append]
          constructor
          · intro h
            have := lower_bound _ _ _ _ _ h
            exact ⟨Or.inr h, fun hc => by omega⟩
          · rintro ⟨h | h, h2⟩
            · split_ifs at h with hc
              · simp only [List.mem_singleton] at h
                subst h
                exact absurd ⟨by omega, s, by simp, hu⟩ h2
              · simp at h
            · exact h
        · rw [if_neg hu]
          constructor
          · intro h
            refine ⟨h, fun ⟨h1, t, h2, h3⟩ => hu ?_⟩
            subst h1
            simp only [Nat.add_zero, Nat.sub_self, List.getElem?_cons_zero, Option.some.injEq] at h2
            rw [h2]; exact h3
          · exact fun h => h.1
      · rw [if_neg (fun hc => hmm (hm.mp hc))]
        have fz : firstNamed (v.map lower) (s :: r) = firstNamed (v.map lower) r + 1 := by
          unfold firstNamed; rw [List.findIdx_cons]; simp [hmm]
        rw [fz, List.mem_append, List.mem_append, ih, frame r (j + 1) j inc (by omega)]
        rw [hp] at shift
        simp only [if_true] at shift
        constructor
        · rintro (h | ⟨h1, h2⟩)
          · refine ⟨Or.inl h, ?_⟩
            split_ifs at h
            · simp only [List.mem_singleton] at h; rintro ⟨a, _⟩; omega
            · simp at h
          · exact ⟨Or.inr h1, fun hc => h2 ((shift _ rfl h1).mpr hc)⟩
        · rintro ⟨h | h, h2⟩
          · exact Or.inl h
          · exact Or.inr ⟨h, fun hc => h2 ((shift _ rfl h).mp hc)⟩
    · unfold suppressPhase admitted
      rw [if_neg hp, if_neg hp, if_neg hp, ih]
      have fz : firstNamed (v.map lower) (s :: r) = firstNamed (v.map lower) r + 1 := by
        unfold firstNamed; rw [List.findIdx_cons]; simp [hp]
      rw [fz]
      rw [if_neg hp] at shift
      constructor
      · rintro ⟨h1, h2⟩; exact ⟨h1, fun hc => h2 ((shift _ rfl h1).mpr hc)⟩
      · rintro ⟨h1, h2⟩; exact ⟨h1, fun hc => h2 ((shift _ rfl h1).mp hc)⟩

/-- 'suppress: <label>' removes the first phase of that name from those the engine considers (if the solver can handle the
phase at all), and changes nothing else; 'suppress: liquid' acts on the liquid only and 'suppress: none' readmits everything. -/
theorem C40_suppress (T : List Solid) (h0 : ∀ s ∈ T, '\x00' ∉ s.label) (g : ℕ → Char) (w v : List Char)
    (hv : Value w v "suppress: ") (s : State)
    (hn : (v.map lower).take 4 ≠ "none".toList.take v.length) (hq : (v.map lower).take 6 ≠ "liquid".toList.take v.length) :
    (∀ x, Admits T (setProperty T g (w ++ v) s).inc x ↔
      Admits T s.inc x ∧ ¬ (x = firstNamed (v.map lower) T ∧ ∃ t, T[x]? = some t ∧ t.usable = true)) ∧
    (setProperty T g (w ++ v) s).fo2Path = s.fo2Path ∧ (setProperty T g (w ++ v) s).fracSol = s.fracSol ∧
    (setProperty T g (w ++ v) s).fracLiq = s.fracLiq ∧ (setProperty T g (w ++ v) s).fracFlu = s.fracFlu := by
  have hw : w.length = 10 := by have := congrArg List.length hv.1; simpa using this
  have e1 := at_value g w v "none".toList 4 (by decide) (by decide) hv.2
  have e2 := at_value g w v "liquid".toList 6 (by decide) (by decide) hv.2
  rw [hw] at e1 e2
  have tk : ∀ (l : List Char) (n m : ℕ), l.length = m → l.take (min n m) = l.take n := by
    intro l n m h
    rcases Nat.le_total n m with h' | h'
    · rw [min_eq_left h']
    · rw [min_eq_right h', List.take_of_length_le (by omega), List.take_of_length_le (by omega)]
  rw [tk _ _ _ (by decide)] at e1 e2
  rw [setProperty_suppress T g w v hv s, if_neg (by rw [e1]; exact hn), if_neg (by rw [e2]; exact hq)]
  refine ⟨fun x => ?_, rfl, rfl, rfl, rfl⟩
  unfold Admits
  have := suppress_admitted g w v hw hv.2 T h0 0 0 s.inc x
  simpa using this

theorem C40_suppress_none (T : List Solid) (g : ℕ → Char) (w v : List Char) (hv : Value w v "suppress: ") (s : State)
    (hn : v.map lower = "none".toList) :
    (∀ x, Admits T (setProperty T g (w ++ v) s).inc x ↔ ∃ t, T[x]? = some t ∧ t.isPhase = true) ∧
    (setProperty T g (w ++ v) s).inc T.length = true := by
  have hw : w.length = 10 := by have := congrArg List.length hv.1; simpa using this
  have e1 := at_value g w v "none".toList 4 (by decide) (by decide) hv.2
  rw [hw] at e1
  have hl : v.length = 4 := by have := congrArg List.length hn; simpa using this
  rw [setProperty_suppress T g w v hv s, if_pos (e1.mpr (by rw [hn, hl]; decide))]
  refine ⟨fun x => ?_, Function.update_self _ _ _⟩
  unfold Admits
  rw [admitted_congr (inc' := fill (fun _ => true) T 0 0 s.inc) T 0 0 fun k _ hk => Function.update_of_ne (by omega) _ _,
    mem_admitted_fill]
  simp

/-! ### Concrete cases -/

example : Value "Mode: ".toList "Fractionate None".toList "mode: " := by
  constructor <;> decide
example : (("Fractionate None".toList).map lower).take 16 = "fractionate none".toList := by decide
example : wish "fractionate Liquids".toList = .liquids := by decide
example : (setProperty [] (fun _ => 'x') "Mode: Fractionate None".toList { fracSol := true }).fracSol = true := by decide
example : (setProperty [] (fun _ => 'x') "mode: set fractionate none".toList { fracSol := true }).fracSol = false := by decide
example : (setProperty [] (fun _ => 'x') "Log fO2 Path: +1.5FMQ".toList {}).fo2Path = 19 := by decide
example : (setProperty [⟨true, "olivine".toList, true⟩, ⟨false, "fo".toList, true⟩, ⟨true, "garnet".toList, true⟩] (fun _ => 'x')
    "Suppress: garnet".toList {}).inc 1 = false := by decide

end Magma.Lib.Strings
