import Mathlib.Algebra.Field.Basic
import Mathlib.Algebra.Field.Rat
import Mathlib.Algebra.BigOperators.Ring.Finset
import Mathlib.Data.List.Basic
import Mathlib.Data.List.TakeWhile
import Mathlib.Data.List.Range
import Mathlib.Data.List.Nodup
import Mathlib.Tactic.Ring
import Mathlib.Tactic.NormNum

/-!
`formulaToMwStoich`, /repo/sources/melts_support.c 746-830: molecular weight and element contents of a formula.

The scan works on a copy `temp` of the formula with a blank appended. It is modelled as a recursion over the characters from
position `i` on; the code removes the multiplier of a group from `temp` when it meets the opening bracket, which here
shortens the rest. `atof` is a parameter: only that it is a function of the string matters.
-/

namespace Magma.Support.Formula

variable {K : Type*} [Field K]

/-- `elements[]`, melts_support.c 140-250: `ne` rows. -/
structure Elements (K : Type*) where
  ne : ℕ
  sym : ℕ → List Char
  wt : ℕ → K

/-- `islower`, `isupper`, `isspace` in the C locale. -/
def lower (c : Char) : Bool := c.isLower
def upper (c : Char) : Bool := c.isUpper
def space (c : Char) : Bool := c = ' ' ∨ c = '\t' ∨ c = '\n' ∨ c = '\x0b' ∨ c = '\x0c' ∨ c = '\r'

/-- `isalpha(c) || isspace(c) || c == '(' || c == ')'`, 766. -/
def mark (c : Char) : Bool := c.isAlpha || space c || c = '(' || c = ')'

/-- `isdigit(c) || c == '.' || c == '-'`, 814. -/
def numeral (c : Char) : Bool := c.isDigit || c = '.' || c = '-'

/-- `for (j=1; j<ne; j++) if (strcmp(sym, elements[j].sym) == 0) break;`, 768-770, 816-818; `none`: `j == ne`. -/
def lookup (E : Elements K) (s : List Char) : Option ℕ := (List.range E.ne).find? fun j => 0 < j ∧ E.sym j = s

/-- Local variables, 748-750, and the array `stoich`. -/
structure St (K : Type*) where
  sym : List Char
  num : List Char
  j : ℕ
  mult : K
  mw : K
  stoich : ℕ → K

inductive Res (K : Type*) where
  /-- the end of the formula was reached: returns `mw` -/
  | ok (mw : K) (stoich : ℕ → K)
  /-- returns 0.0 -/
  | err (stoich : ℕ → K)
  /-- writes beyond the three characters of `sym` -/
  | overflow

/-- 767-773: a symbol ends; `none`: unknown. -/
def endSym (E : Elements K) (c : Char) (s : St K) : Option (St K) :=
  if !lower c && s.sym ≠ [] then (lookup E s.sym).map fun j => { s with j := j, sym := [] } else some s

/-- 774-784: book the element found. -/
def book (E : Elements K) (atof : List Char → K) (s : St K) : St K :=
  if 0 < s.j then
    let q := if s.num = [] then s.mult else atof s.num * s.mult
    { s with stoich := Function.update s.stoich s.j (s.stoich s.j + q), mw := s.mw + q * E.wt s.j, j := 0, num := [] }
  else s

theorem inner_lt (t : List Char) (h : t.dropLast.contains ')' = true) :
    (t.dropLast.takeWhile (· ≠ ')')).length < t.dropLast.length := by
  have hc : ')' ∈ t.dropLast := by simpa using h
  refine lt_of_le_of_ne (List.takeWhile_prefix _).length_le fun e => ?_
  have := (List.takeWhile_prefix (fun x => decide (x ≠ ')')) (l := t.dropLast)).eq_of_length e
  rw [← this] at hc
  have := List.mem_takeWhile_imp hc
  simp at this

/-- The loop 764-822, then 824-828. The argument is the part of `temp` from `i` on; its last character is the blank appended
at 762. -/
def scan (E : Elements K) (atof : List Char → K) : (t : List Char) → St K → Res K
  | [], s => .ok s.mw s.stoich
  | c :: t, s =>
    if mark c then
      match endSym E c s with
      | none => .err s.stoich
      | some s =>
        let s := book E atof s
        if c = '(' then
          if t.dropLast.contains ')' then
            let inner := t.dropLast.takeWhile (· ≠ ')')
            let after := t.drop (inner.length + 1)
            let mul := after.dropLast.takeWhile fun d => !upper d && d ≠ '('
            scan E atof (inner ++ ')' :: after.drop mul.length)
              { s with mult := if mul ≠ [] then atof mul else s.mult, num := [] }
          else .err s.stoich
        else if c = ')' then scan E atof t { s with mult := 1 }
        else if 2 ≤ s.sym.length then .overflow
        else scan E atof t { s with sym := s.sym ++ [c] }
    else if numeral c then
      if s.num = [] then
        match lookup E s.sym with
        | none => .err s.stoich
        | some j => scan E atof t { s with j := j, sym := [], num := [c] }
      else scan E atof t { s with num := s.num ++ [c] }
    else .err s.stoich
termination_by t => t.length
decreasing_by
  · have h1 := inner_lt t ‹_›
    simp only [List.length_dropLast] at h1
    simp only [List.length_append, List.length_cons, List.length_drop, inner, after]
    omega
  all_goals simp

/-- `formulaToMwStoich(formula, stoich)`, 746-830. -/
def formulaToMwStoich (E : Elements K) (atof : List Char → K) (formula : List Char) (stoich : ℕ → K) : Res K :=
  if formula = [] then .err stoich else scan E atof (formula ++ [' ']) ⟨[], [], 0, 1, 0, stoich⟩

/-! ### Specification: formulas -/

/-- An element of the table (by index) with its number; an empty string stands for one. -/
structure Atom where
  el : ℕ
  num : List Char

inductive Item where
  | atom (a : Atom)
  /-- atoms in brackets with the multiplier that follows them -/
  | group (as : List Atom) (mul : List Char)

def Atom.text (E : Elements K) (a : Atom) : List Char := E.sym a.el ++ a.num

def Item.text (E : Elements K) : Item → List Char
  | .atom a => a.text E
  | .group as mul => '(' :: as.flatMap (Atom.text E) ++ ')' :: mul

/-- The formula as the user writes it. -/
def text (E : Elements K) (f : List Item) : List Char := f.flatMap (Item.text E)

/-- The number a string stands for. -/
def value (atof : List Char → K) (num : List Char) : K := if num = [] then 1 else atof num

/-- How many atoms of element `e` the formula has. -/
def Atom.count (atof : List Char → K) (e : ℕ) (a : Atom) : K := if a.el = e then value atof a.num else 0

def Item.count (atof : List Char → K) (e : ℕ) : Item → K
  | .atom a => a.count atof e
  | .group as mul => (as.map (Atom.count atof e)).sum * value atof mul

def count (atof : List Char → K) (f : List Item) (e : ℕ) : K := (f.map (Item.count atof e)).sum

/-- The symbol is a capital letter, alone or followed by one small letter, and belongs to this row only. -/
def GoodSymbol (E : Elements K) (j : ℕ) : Prop :=
  0 < j ∧ j < E.ne ∧ (∀ i, 0 < i → i < E.ne → E.sym i = E.sym j → i = j) ∧
    ((∃ u, E.sym j = [u] ∧ upper u = true) ∨ ∃ u l, E.sym j = [u, l] ∧ upper u = true ∧ lower l = true)

def Atom.Good (E : Elements K) (a : Atom) : Prop := GoodSymbol E a.el ∧ ∀ c ∈ a.num, numeral c = true

def Item.Good (E : Elements K) : Item → Prop
  | .atom a => a.Good E
  | .group as mul => (∀ a ∈ as, a.Good E) ∧ ∀ c ∈ mul, numeral c = true

/-! ### Lemmas: characters -/

theorem upper_alpha {c : Char} (h : upper c = true) : c.isAlpha = true := by simp [Char.isAlpha, upper] at *; simp [h]
theorem lower_alpha {c : Char} (h : lower c = true) : c.isAlpha = true := by simp [Char.isAlpha, lower] at *; simp [h]

theorem upper_val {c : Char} (h : upper c = true) : 65 ≤ c.toNat ∧ c.toNat ≤ 90 := by
  simp only [upper, Char.isUpper, ge_iff_le, Bool.and_eq_true, decide_eq_true_eq] at h
  exact ⟨h.1, h.2⟩

theorem lower_val {c : Char} (h : lower c = true) : 97 ≤ c.toNat ∧ c.toNat ≤ 122 := by
  simp only [lower, Char.isLower, ge_iff_le, Bool.and_eq_true, decide_eq_true_eq] at h
  exact ⟨h.1, h.2⟩

theorem numeral_val {c : Char} (h : numeral c = true) : 45 ≤ c.toNat ∧ c.toNat ≤ 57 := by
  simp only [numeral, Char.isDigit, ge_iff_le, Bool.or_eq_true, Bool.and_eq_true, decide_eq_true_eq] at h
  rcases h with (⟨h1, h2⟩ | h) | h
  · have a : 48 ≤ c.toNat := h1
    have b : c.toNat ≤ 57 := h2
    omega
  · subst h; decide
  · subst h; decide

theorem not_upper_of_numeral {c : Char} (h : numeral c = true) : upper c = false := by
  rw [Bool.eq_false_iff]; intro h'
  have := upper_val h'; have := numeral_val h; omega

theorem not_lower_of_upper {c : Char} (h : upper c = true) : lower c = false := by
  rw [Bool.eq_false_iff]; intro h'
  have := upper_val h; have := lower_val h'; omega

theorem ne_of_val {c d : Char} (h : c.toNat ≠ d.toNat) : c ≠ d := fun e => h (by rw [e])

theorem mark_numeral {c : Char} (h : numeral c = true) : mark c = false := by
  have hv := numeral_val h
  have h1 : c.isAlpha = false := by
    rw [Bool.eq_false_iff]; intro h'
    simp only [Char.isAlpha, Bool.or_eq_true] at h'
    rcases h' with h' | h'
    · have := upper_val h'; omega
    · have := lower_val h'; omega
  have h2 : space c = false := by
    simp only [space, decide_eq_false_iff_not, not_or]
    refine ⟨?_, ?_, ?_, ?_, ?_, ?_⟩ <;> apply ne_of_val <;> simp <;> omega
  have h3 : c ≠ '(' := ne_of_val (by simp; omega)
  have h4 : c ≠ ')' := ne_of_val (by simp; omega)
  simp [mark, h1, h2, h3, h4]

theorem lookup_good (E : Elements K) (j : ℕ) (h : GoodSymbol E j) : lookup E (E.sym j) = some j := by
  obtain ⟨h0, h1, h2, _⟩ := h
  unfold lookup
  cases hf : (List.range E.ne).find? fun i => 0 < i ∧ E.sym i = E.sym j with
  | none =>
    rw [List.find?_eq_none] at hf
    have := hf j (List.mem_range.mpr h1)
    simp [h0] at this
  | some i =>
    have hm := List.mem_of_find?_eq_some hf
    have hp := List.find?_some hf
    simp only [decide_eq_true_eq] at hp
    rw [h2 i hp.1 (List.mem_range.mp hm) hp.2]

/-! ### Lemmas: the scan -/

variable (E : Elements K) (atof : List Char → K)

/-- State between atoms. -/
def clean (mult mw : K) (st : ℕ → K) : St K := ⟨[], [], 0, mult, mw, st⟩

theorem scan_upper (c : Char) (t : List Char) (μ mw : K) (st : ℕ → K) (h : upper c = true) :
    scan E atof (c :: t) (clean μ mw st) = scan E atof t ⟨[c], [], 0, μ, mw, st⟩ := by
  have hv := upper_val h
  have h1 : mark c = true := by simp [mark, upper_alpha h]
  have h2 : c ≠ '(' := ne_of_val (by simp; omega)
  have h3 : c ≠ ')' := ne_of_val (by simp; omega)
  rw [scan]
  simp [h1, h2, h3, endSym, book, clean]

theorem scan_lower (c : Char) (t : List Char) (u : Char) (μ mw : K) (st : ℕ → K) (h : lower c = true) :
    scan E atof (c :: t) ⟨[u], [], 0, μ, mw, st⟩ = scan E atof t ⟨[u, c], [], 0, μ, mw, st⟩ := by
  have hv := lower_val h
  have h1 : mark c = true := by simp [mark, lower_alpha h]
  have h2 : c ≠ '(' := ne_of_val (by simp; omega)
  have h3 : c ≠ ')' := ne_of_val (by simp; omega)
  rw [scan]
  simp [h1, h2, h3, endSym, book, h]

theorem scan_digits (j : ℕ) (μ mw : K) (st : ℕ → K) : ∀ (ds t : List Char) (n : List Char), n ≠ [] →
    (∀ c ∈ ds, numeral c = true) →
    scan E atof (ds ++ t) ⟨[], n, j, μ, mw, st⟩ = scan E atof t ⟨[], n ++ ds, j, μ, mw, st⟩
  | [], t, n, _, _ => by simp
  | d :: ds, t, n, hn, hd => by
    have hd1 := hd d (by simp)
    rw [List.cons_append, scan]
    simp only [mark_numeral hd1, hd1, hn, if_false, if_true, Bool.false_eq_true]
    rw [scan_digits j μ mw st ds t (n ++ [d]) (by simp) (fun c hc => hd c (by simp [hc]))]
    simp

/-- Characters that end an atom. -/
def ends (c : Char) : Prop := upper c = true ∨ c = '(' ∨ c = ')' ∨ c = ' '

theorem ends_mark {c : Char} (h : ends c) : mark c = true := by
  rcases h with h | h | h | h
  · simp [mark, upper_alpha h]
  · subst h; decide
  · subst h; decide
  · subst h; decide

theorem ends_lower {c : Char} (h : ends c) : lower c = false := by
  rcases h with h | h | h | h
  · exact not_lower_of_upper h
  · subst h; decide
  · subst h; decide
  · subst h; decide

/-- At a character that ends an atom, pending input may be replaced by its effect. -/
theorem scan_ends (c : Char) (t : List Char) (hc : ends c) (s s' : St K) (hs : endSym E c s = some s') (j : ℕ) (q : K)
    (hq : q = (if s'.num = [] then s'.mult else atof s'.num * s'.mult)) (hj : s'.j = j) (h0 : 0 < j) (hsym : s'.sym = []) :
    scan E atof (c :: t) s =
      scan E atof (c :: t) (clean s'.mult (s'.mw + q * E.wt j) (Function.update s'.stoich j (s'.stoich j + q))) := by
  rw [scan, scan]
  simp only [ends_mark hc, if_true, hs]
  have hb : book E atof s' = clean s'.mult (s'.mw + q * E.wt j) (Function.update s'.stoich j (s'.stoich j + q)) := by
    unfold book clean
    rw [if_pos (by omega)]
    simp only [hj, ← hq, hsym]
  have hb2 : endSym E c (clean s'.mult (s'.mw + q * E.wt j) (Function.update s'.stoich j (s'.stoich j + q))) =
      some (clean s'.mult (s'.mw + q * E.wt j) (Function.update s'.stoich j (s'.stoich j + q))) := by
    simp [endSym, clean]
  have hb3 : book E atof (clean s'.mult (s'.mw + q * E.wt j) (Function.update s'.stoich j (s'.stoich j + q))) =
      clean s'.mult (s'.mw + q * E.wt j) (Function.update s'.stoich j (s'.stoich j + q)) := by
    simp [book, clean]
  simp only [hb2, hb, hb3]

/-- One atom. -/
theorem scan_atom (a : Atom) (ha : a.Good E) (c : Char) (t : List Char) (hc : ends c) (μ mw : K) (st : ℕ → K) :
    scan E atof (a.text E ++ c :: t) (clean μ mw st) =
      scan E atof (c :: t) (clean μ (mw + value atof a.num * μ * E.wt a.el)
        (Function.update st a.el (st a.el + value atof a.num * μ))) := by
  obtain ⟨hs, hn⟩ := ha
  have hl := lookup_good E a.el hs
  obtain ⟨h0, _, _, h⟩ := hs
  -- after the symbol
  have key : ∀ rest, ∃ sy, sy = E.sym a.el ∧
      scan E atof (E.sym a.el ++ rest) (clean μ mw st) = scan E atof rest ⟨sy, [], 0, μ, mw, st⟩ := by
    intro rest
    refine ⟨_, rfl, ?_⟩
    rcases h with ⟨u, e, hu⟩ | ⟨u, l, e, hu, hlo⟩
    · rw [e]; exact scan_upper E atof u rest μ mw st hu
    · rw [e]
      show scan E atof (u :: l :: rest) _ = _
      rw [scan_upper E atof u _ μ mw st hu, scan_lower E atof l rest u μ mw st hlo]
  have hne : E.sym a.el ≠ [] := by
    rcases h with ⟨u, e, _⟩ | ⟨u, l, e, _⟩ <;> rw [e] <;> simp
  unfold Atom.text
  rw [List.append_assoc]
  obtain ⟨sy, hsy, hk⟩ := key (a.num ++ c :: t)
  rw [hk]
  subst hsy
  cases hnum : a.num with
  | nil =>
    rw [List.nil_append]
    rw [scan_ends E atof c t hc _ ⟨[], [], a.el, μ, mw, st⟩ (by simp [endSym, ends_lower hc, hne, hl]) a.el μ (by simp) rfl h0 rfl]
    simp [value]
  | cons d ds =>
    rw [hnum] at hn
    have hd := hn d (by simp)
    rw [List.cons_append, scan]
    simp only [mark_numeral hd, hd, if_true, Bool.false_eq_true, if_false, hl]
    rw [scan_digits E atof a.el μ mw st ds (c :: t) [d] (by simp) (fun x hx => hn x (by simp [hx]))]
    rw [scan_ends E atof c t hc _ ⟨[], [d] ++ ds, a.el, μ, mw, st⟩ (by simp [endSym]) a.el (atof (d :: ds) * μ) (by simp) rfl h0 rfl]
    simp [value]

/-- Amounts booked for a list of atoms. -/
def addAtoms (as : List Atom) (μ : K) (st : ℕ → K) (e : ℕ) : K := st e + (as.map (Atom.count atof e)).sum * μ

def mwAtoms (as : List Atom) : K := (as.map fun a => value atof a.num * E.wt a.el).sum

theorem text_head (a : Atom) (ha : a.Good E) : ∃ u r, a.text E = u :: r ∧ upper u = true := by
  obtain ⟨⟨_, _, _, h⟩, _⟩ := ha
  unfold Atom.text
  rcases h with ⟨u, e, hu⟩ | ⟨u, l, e, hu, _⟩ <;> rw [e] <;> exact ⟨u, _, rfl, hu⟩

theorem scan_atoms (μ : K) : ∀ (as : List Atom) (_ : ∀ a ∈ as, a.Good E) (c : Char) (t : List Char) (_ : ends c) (mw : K)
    (st : ℕ → K), scan E atof (as.flatMap (Atom.text E) ++ c :: t) (clean μ mw st) =
      scan E atof (c :: t) (clean μ (mw + mwAtoms E atof as * μ) (addAtoms atof as μ st))
  | [], _, c, t, _, mw, st => by
    simp only [List.flatMap_nil, List.nil_append, mwAtoms, List.map_nil, List.sum_nil, zero_mul, add_zero]
    congr
    funext e; simp [addAtoms]
  | a :: as, ha, c, t, hc, mw, st => by
    have ha1 := ha a (by simp)
    have ha2 : ∀ b ∈ as, b.Good E := fun b hb => ha b (by simp [hb])
    have e1 : (a :: as).flatMap (Atom.text E) ++ c :: t = a.text E ++ (as.flatMap (Atom.text E) ++ c :: t) := by simp
    obtain ⟨c', t', e2, hc'⟩ : ∃ c' t', as.flatMap (Atom.text E) ++ c :: t = c' :: t' ∧ ends c' := by
      cases as with
      | nil => exact ⟨c, t, rfl, hc⟩
      | cons b bs =>
        obtain ⟨u, r, e, hu⟩ := text_head E b (ha2 b (by simp))
        refine ⟨u, r ++ (bs.flatMap (Atom.text E) ++ c :: t), by simp [e], Or.inl hu⟩
    rw [e1, e2, scan_atom E atof a ha1 c' t' hc' μ mw st, ← e2, scan_atoms μ as ha2 c t hc]
    congr 2
    · simp only [mwAtoms, List.map_cons, List.sum_cons]; ring
    · funext e
      simp only [addAtoms, List.map_cons, List.sum_cons, Atom.count]
      by_cases h : a.el = e
      · subst h; rw [Function.update_self, if_pos rfl]; ring
      · rw [Function.update_of_ne (Ne.symm h), if_neg h]; ring

theorem text_no_close (as : List Atom) (h : ∀ a ∈ as, a.Good E) : ∀ c ∈ as.flatMap (Atom.text E), c ≠ ')' := by
  intro c hc
  obtain ⟨a, ha, hca⟩ := List.mem_flatMap.mp hc
  obtain ⟨⟨_, _, _, hs⟩, hn⟩ := h a ha
  unfold Atom.text at hca
  rcases List.mem_append.mp hca with h1 | h1
  · rcases hs with ⟨u, e, hu⟩ | ⟨u, l, e, hu, hl⟩
    · rw [e] at h1
      simp only [List.mem_singleton] at h1
      subst h1
      have := upper_val hu
      exact ne_of_val (by simp; omega)
    · rw [e] at h1
      simp only [List.mem_cons, List.not_mem_nil, or_false] at h1
      rcases h1 with h1 | h1
      · subst h1; have := upper_val hu; exact ne_of_val (by simp; omega)
      · subst h1; have := lower_val hl; exact ne_of_val (by simp; omega)
  · have := numeral_val (hn c h1)
    exact ne_of_val (by simp; omega)

theorem takeWhile_all {α : Type*} (p : α → Bool) : ∀ (l r : List α), (∀ x ∈ l, p x = true) →
    (l ++ r).takeWhile p = l ++ r.takeWhile p
  | [], r, _ => rfl
  | x :: l, r, h => by
    rw [List.cons_append, List.takeWhile_cons_of_pos (h x (by simp)), takeWhile_all p l r (fun y hy => h y (by simp [hy]))]
    rfl

/-- What may follow a group: the blank at the end, or the next item. -/
def Follows (c : Char) (t : List Char) : Prop := (c = ' ' ∧ t = []) ∨ ((upper c = true ∨ c = '(') ∧ t ≠ [])

/-- One group. -/
theorem scan_group (as : List Atom) (mul : List Char) (ha : ∀ a ∈ as, a.Good E) (hm : ∀ c ∈ mul, numeral c = true)
    (c : Char) (t : List Char) (hc : Follows c t) (mw : K) (st : ℕ → K) :
    scan E atof ((Item.group as mul).text E ++ c :: t) (clean 1 mw st) =
      scan E atof (c :: t) (clean 1 (mw + mwAtoms E atof as * value atof mul) (addAtoms atof as (value atof mul) st)) := by
  have e : (Item.group as mul).text E ++ c :: t = '(' :: (as.flatMap (Atom.text E) ++ ')' :: (mul ++ c :: t)) := by
    simp [Item.text]
  rw [e, scan]
  have hdl : (as.flatMap (Atom.text E) ++ ')' :: (mul ++ c :: t)).dropLast =
      as.flatMap (Atom.text E) ++ ')' :: (mul ++ (c :: t).dropLast) := by
    rw [List.dropLast_append_of_ne_nil (by simp), List.dropLast_cons_of_ne_nil (by simp),
      List.dropLast_append_of_ne_nil (by simp)]
  have hmk : mark '(' = true := by decide
  have hin : (as.flatMap (Atom.text E) ++ ')' :: (mul ++ c :: t)).dropLast.takeWhile (fun x => decide (x ≠ ')')) =
      as.flatMap (Atom.text E) := by
    rw [hdl, takeWhile_all _ _ _ (fun x hx => by simpa using text_no_close E as ha x hx)]
    simp
  have hcon : (as.flatMap (Atom.text E) ++ ')' :: (mul ++ c :: t)).dropLast.contains ')' = true := by
    rw [hdl]; simp
  have hdr : (as.flatMap (Atom.text E) ++ ')' :: (mul ++ c :: t)).drop ((as.flatMap (Atom.text E)).length + 1) = mul ++ c :: t := by
    rw [List.drop_append, List.drop_eq_nil_of_le (by omega)]
    simp
  have hmul : (mul ++ c :: t).dropLast.takeWhile (fun d => !upper d && decide (d ≠ '(')) = mul := by
    rw [List.dropLast_append_of_ne_nil (by simp), takeWhile_all]
    · rcases hc with ⟨_, ht⟩ | ⟨hc, ht⟩
      · subst ht; simp
      · rw [List.dropLast_cons_of_ne_nil ht, List.takeWhile_cons_of_neg, List.append_nil]
        rcases hc with hc | hc
        · simp [hc]
        · simp [hc]
    · intro x hx
      have := numeral_val (hm x hx)
      have h2 : x ≠ '(' := ne_of_val (by simp; omega)
      simp [not_upper_of_numeral (hm x hx), h2]
  have he : endSym E '(' (clean 1 mw st) = some (clean 1 mw st) := by simp [endSym, clean]
  have hb : book E atof (clean 1 mw st) = clean 1 mw st := by simp [book, clean]
  simp only [hmk, if_true, he, hb, hcon, hin, hdr, hmul]
  have hst : ({ clean 1 mw st with mult := if mul ≠ [] then atof mul else (clean 1 mw st).mult, num := [] } : St K) =
      clean (value atof mul) mw st := by
    unfold clean value
    by_cases h : mul = [] <;> simp [h]
  rw [hst]
  have hd2 : (mul ++ c :: t).drop mul.length = c :: t := by simp
  rw [hd2, scan_atoms E atof _ as ha ')' (c :: t) (by unfold ends; simp), scan]
  have hmk2 : mark ')' = true := by decide
  have he2 : ∀ s : ℕ → K, ∀ m, endSym E ')' (clean (value atof mul) m s) = some (clean (value atof mul) m s) := by
    intro s m; simp [endSym, clean]
  have hb2 : ∀ s : ℕ → K, ∀ m, book E atof (clean (value atof mul) m s) = clean (value atof mul) m s := by
    intro s m; simp [book, clean]
  simp only [hmk2, if_true, he2, hb2]
  rw [if_neg (by decide)]
  rfl

/-- Molecular weight of a formula from its written form. -/
def mwItem : Item → K
  | .atom a => value atof a.num * E.wt a.el
  | .group as mul => mwAtoms E atof as * value atof mul

theorem item_head (i : Item) (h : i.Good E) : ∃ u r, i.text E = u :: r ∧ (upper u = true ∨ u = '(') := by
  cases i with
  | atom a => obtain ⟨u, r, e, hu⟩ := text_head E a h; exact ⟨u, r, e, Or.inl hu⟩
  | group as mul => exact ⟨'(', _, rfl, Or.inr rfl⟩

theorem scan_items : ∀ (f : List Item) (_ : ∀ i ∈ f, i.Good E) (mw : K) (st : ℕ → K),
    scan E atof (text E f ++ [' ']) (clean 1 mw st) =
      scan E atof [' '] (clean 1 (mw + (f.map (mwItem E atof)).sum) fun e => st e + count atof f e)
  | [], _, mw, st => by simp [text, count]
  | i :: f, h, mw, st => by
    have hi := h i (by simp)
    have hf : ∀ x ∈ f, x.Good E := fun x hx => h x (by simp [hx])
    have e1 : text E (i :: f) ++ [' '] = i.text E ++ (text E f ++ [' ']) := by simp [text]
    obtain ⟨c, t, e2, hc⟩ : ∃ c t, text E f ++ [' '] = c :: t ∧ Follows c t := by
      cases f with
      | nil => exact ⟨' ', [], rfl, Or.inl ⟨rfl, rfl⟩⟩
      | cons x xs =>
        obtain ⟨u, r, e, hu⟩ := item_head E x (hf x (by simp))
        refine ⟨u, r ++ (text E xs ++ [' ']), by simp [text, e], Or.inr ⟨hu, by simp⟩⟩
    have hends : ends c := by
      rcases hc with ⟨hc, _⟩ | ⟨hc | hc, _⟩
      · exact Or.inr (Or.inr (Or.inr hc))
      · exact Or.inl hc
      · exact Or.inr (Or.inl hc)
    rw [e1, e2]
    cases i with
    | atom a =>
      rw [show (Item.atom a).text E = a.text E from rfl, scan_atom E atof a hi c t hends, ← e2, scan_items f hf]
      congr 2
      · simp only [List.map_cons, List.sum_cons, mwItem]; ring
      · funext e
        simp only [count, List.map_cons, List.sum_cons, Item.count, Atom.count]
        by_cases h : a.el = e
        · subst h; rw [Function.update_self, if_pos rfl]; ring
        · rw [Function.update_of_ne (Ne.symm h), if_neg h]; ring
    | group as mul =>
      rw [scan_group E atof as mul hi.1 hi.2 c t hc, ← e2, scan_items f hf]
      congr 2
      · simp only [List.map_cons, List.sum_cons, mwItem]; ring
      · funext e
        simp only [count, List.map_cons, List.sum_cons, Item.count, addAtoms]; ring

theorem scan_end (mw : K) (st : ℕ → K) : scan E atof [' '] (clean 1 mw st) = .ok mw st := by
  rw [scan]
  have h1 : mark ' ' = true := by decide
  have h2 : ' ' ≠ '(' := by decide
  have h3 : ' ' ≠ ')' := by decide
  simp [h1, endSym, book, clean, scan]

theorem sum_atoms (f : ℕ → K) (as : List Atom) (h : ∀ a ∈ as, a.el < E.ne) :
    ∑ e ∈ Finset.range E.ne, (as.map (Atom.count atof e)).sum * f e = (as.map fun a => value atof a.num * f a.el).sum := by
  induction as with
  | nil => simp
  | cons a as ih =>
    have h1 := h a (by simp)
    simp only [List.map_cons, List.sum_cons, add_mul, Finset.sum_add_distrib]
    rw [ih (fun b hb => h b (by simp [hb]))]
    congr 1
    unfold Atom.count
    simp only [ite_mul, zero_mul]
    rw [Finset.sum_ite_eq, if_pos (Finset.mem_range.mpr h1)]

theorem sum_items (f : List Item) (h : ∀ i ∈ f, i.Good E) :
    (f.map (mwItem E atof)).sum = ∑ e ∈ Finset.range E.ne, count atof f e * E.wt e := by
  induction f with
  | nil => simp [count]
  | cons i f ih =>
    have h1 := h i (by simp)
    simp only [List.map_cons, List.sum_cons, count, add_mul, Finset.sum_add_distrib]
    rw [ih (fun b hb => h b (by simp [hb]))]
    congr 1
    cases i with
    | atom a =>
      have := sum_atoms E atof E.wt [a] (by intro b hb; simp only [List.mem_singleton] at hb; subst hb; exact h1.1.2.1)
      simpa [mwItem, Item.count] using this.symm
    | group as mul =>
      have := sum_atoms E atof E.wt as (fun b hb => (h1.1 b hb).1.2.1)
      simp only [mwItem, Item.count, mwAtoms]
      rw [← this, Finset.sum_mul]
      refine Finset.sum_congr rfl fun e _ => by ring

/-! ### C26 -/

/-- A well-formed formula is read as written: each element gets the number of its atoms, multipliers of groups included and
applied to the group only, and the weight returned is the sum of the atomic weights. -/
theorem C26_reads_formulas (f : List Item) (hf : f ≠ []) (h : ∀ i ∈ f, i.Good E) (st : ℕ → K) :
    formulaToMwStoich E atof (text E f) st =
      .ok (∑ e ∈ Finset.range E.ne, count atof f e * E.wt e) (fun e => st e + count atof f e) := by
  have hne : text E f ≠ [] := by
    cases f with
    | nil => exact absurd rfl hf
    | cons i f =>
      obtain ⟨u, r, e, _⟩ := item_head E i (h i (by simp))
      simp [text, e]
  unfold formulaToMwStoich
  rw [if_neg hne]
  have := scan_items E atof f h 0 st
  rw [zero_add, scan_end, sum_items E atof f h] at this
  exact this

/-- For every string that is accepted, formula or not, the weight returned is that of the elements booked. -/
theorem scan_weight : ∀ (n : ℕ) (t : List Char) (s : St K) (st₀ : ℕ → K) (mw : K) (st : ℕ → K), t.length ≤ n →
    s.j < E.ne → s.mw = ∑ e ∈ Finset.range E.ne, (s.stoich e - st₀ e) * E.wt e → scan E atof t s = .ok mw st →
    mw = ∑ e ∈ Finset.range E.ne, (st e - st₀ e) * E.wt e := by
  intro n
  induction n with
  | zero =>
    intro t s st₀ mw st hn _ hs h
    have : t = [] := List.length_eq_zero_iff.mp (Nat.le_zero.mp hn)
    subst this
    simp only [scan, Res.ok.injEq] at h
    rw [← h.1, ← h.2]; exact hs
  | succ n ih =>
    intro t s st₀ mw st hn hj hs h
    cases t with
    | nil =>
      simp only [scan, Res.ok.injEq] at h
      rw [← h.1, ← h.2]; exact hs
    | cons c t =>
      simp only [List.length_cons] at hn
      have hlk : ∀ sy j, lookup E sy = some j → j < E.ne := fun sy j hl =>
        List.mem_range.mp (List.mem_of_find?_eq_some hl)
      rw [scan] at h
      by_cases h1 : mark c = true
      · rw [if_pos h1] at h
        cases he : endSym E c s with
        | none => rw [he] at h; simp at h
        | some s1 =>
          rw [he] at h
          simp only at h
          have hs1 : s1.j < E.ne ∧ s1.mw = s.mw ∧ s1.stoich = s.stoich := by
            unfold endSym at he
            split_ifs at he
            · cases hl : lookup E s.sym with
              | none => rw [hl] at he; simp at he
              | some j =>
                rw [hl] at he
                simp only [Option.map_some, Option.some.injEq] at he
                rw [← he]
                exact ⟨hlk _ _ hl, rfl, rfl⟩
            · simp only [Option.some.injEq] at he
              rw [← he]; exact ⟨hj, rfl, rfl⟩
          have hne : 0 < E.ne := Nat.lt_of_le_of_lt (Nat.zero_le _) hj
          have hb : (book E atof s1).j < E.ne ∧
              (book E atof s1).mw = ∑ e ∈ Finset.range E.ne, ((book E atof s1).stoich e - st₀ e) * E.wt e := by
            unfold book
            by_cases h4 : 0 < s1.j
            · rw [if_pos h4]
              refine ⟨hne, ?_⟩
              simp only
              have hm := Finset.mem_range.mpr hs1.1
              rw [← Finset.add_sum_erase _ _ hm, Function.update_self, hs1.2.1, hs, hs1.2.2, ← Finset.add_sum_erase _ _ hm]
              have : ∀ q : K, ∑ x ∈ (Finset.range E.ne).erase s1.j,
                  (Function.update s.stoich s1.j q x - st₀ x) * E.wt x =
                  ∑ x ∈ (Finset.range E.ne).erase s1.j, (s.stoich x - st₀ x) * E.wt x := by
                intro q
                refine Finset.sum_congr rfl fun x hx => ?_
                rw [Function.update_of_ne (Finset.ne_of_mem_erase hx)]
              rw [this]
              ring
            · rw [if_neg h4]
              exact ⟨hs1.1, by rw [hs1.2.1, hs1.2.2]; exact hs⟩
          split_ifs at h with h5 h6 h7 h8
          · refine ih _ _ st₀ mw st ?_ ?_ ?_ h
            · have h9 := inner_lt t h6
              simp only [List.length_dropLast] at h9
              simp only [List.length_append, List.length_cons, List.length_drop]
              omega
            · exact hb.1
            · exact hb.2
          · refine ih _ _ st₀ mw st ?_ ?_ ?_ h
            · have h9 := inner_lt t h6
              simp only [List.length_dropLast] at h9
              simp only [List.length_append, List.length_cons, List.length_drop]
              omega
            · exact hb.1
            · exact hb.2
          · exact ih _ _ st₀ mw st (by omega) (by exact hb.1) (by exact hb.2) h
          · exact ih _ _ st₀ mw st (by omega) (by exact hb.1) (by exact hb.2) h
      · rw [if_neg h1] at h
        split_ifs at h with h2 h3
        · cases hl : lookup E s.sym with
          | none => rw [hl] at h; simp at h
          | some j =>
            rw [hl] at h
            exact ih _ _ st₀ mw st (by omega) (by exact hlk _ _ hl) (by exact hs) h
        · exact ih _ _ st₀ mw st (by omega) (by exact hj) (by exact hs) h

theorem C26_weight (hne : 0 < E.ne) (formula : List Char) (st₀ : ℕ → K) (mw : K) (st : ℕ → K)
    (h : formulaToMwStoich E atof formula st₀ = .ok mw st) :
    mw = ∑ e ∈ Finset.range E.ne, (st e - st₀ e) * E.wt e := by
  unfold formulaToMwStoich at h
  split_ifs at h
  refine scan_weight E atof _ _ _ st₀ mw st (Nat.le_refl _) ?_ ?_ h
  · exact hne
  · simp

end Magma.Support.Formula
