import Verif.Support.FormulaTables
import Mathlib.Tactic.IntervalCases
import Mathlib.Algebra.Order.Ring.Rat

/-!
C26 for the tables of /repo, and the strings on which `formulaToMwStoich` fails or misreads.
-/

namespace Magma.Support.Formula

variable {K : Type*} [Field K]

/-- Row `j` has a symbol of one capital letter, possibly with one small letter. -/
def goodShape (j : ℕ) : Bool :=
  match elements.sym j with
  | [u] => upper u
  | [u, l] => upper u && lower l
  | _ => false

/-- Every element of the table but the last (symbol "ZZ") can be written in a formula. -/
theorem good_rows (j : ℕ) (h0 : 0 < j) (h1 : j < 106) : GoodSymbol elements j := by
  have hall : ∀ i < 107, ∀ k < 107, elements.sym i = elements.sym k → i = k := by decide +kernel
  have hne : elements.ne = 107 := by decide +kernel
  have hs : ∀ i < 106, 0 < i → goodShape i = true := by decide +kernel
  refine ⟨h0, by omega, fun i _ hi e => hall i (by omega) j (by omega) e, ?_⟩
  have := hs j h1 h0
  unfold goodShape at this
  split at this
  · rename_i u e; exact Or.inl ⟨u, e, this⟩
  · rename_i u l e
    rw [Bool.and_eq_true] at this
    exact Or.inr ⟨u, l, e, this.1, this.2⟩
  · simp at this

def atomOk (a : Atom) : Bool := 0 < a.el && a.el < 106 && a.num.all numeral

def itemOk : Item → Bool
  | .atom a => atomOk a
  | .group as mul => as.all atomOk && mul.all numeral

theorem atomOk_good (a : Atom) (h : atomOk a = true) : a.Good elements := by
  simp only [atomOk, Bool.and_eq_true, decide_eq_true_eq, List.all_eq_true] at h
  exact ⟨good_rows a.el h.1.1 h.1.2, h.2⟩

theorem itemOk_good (i : Item) (h : itemOk i = true) : i.Good elements := by
  cases i with
  | atom a => exact atomOk_good a h
  | group as mul =>
    simp only [itemOk, Bool.and_eq_true, List.all_eq_true] at h
    exact ⟨fun a ha => atomOk_good a (h.1 a ha), h.2⟩

theorem formulas_ok : ∀ p ∈ formulas, p.2 ≠ [] ∧ p.2.all itemOk = true ∧ text elements p.2 = p.1.toList := by
  have : formulas.all (fun p => !p.2.isEmpty && p.2.all itemOk && (text elements p.2 == p.1.toList)) = true := by decide +kernel
  intro p hp
  have h := (List.all_eq_true.mp this) p hp
  simp only [Bool.and_eq_true, beq_iff_eq, Bool.not_eq_true', List.isEmpty_eq_false_iff] at h
  exact ⟨h.1.1, h.1.2, h.2⟩

/-- Every formula of the tables of oxides, liquid components and solids is accepted and read as it is written. -/
theorem C26_tables (atof : List Char → ℚ) (p : String × List Item) (hp : p ∈ formulas) (st : ℕ → ℚ) :
    formulaToMwStoich elements atof p.1.toList st =
      .ok (∑ e ∈ Finset.range elements.ne, count atof p.2 e * elements.wt e) (fun e => st e + count atof p.2 e) := by
  obtain ⟨h1, h2, h3⟩ := formulas_ok p hp
  rw [← h3]
  exact C26_reads_formulas elements atof p.2 h1 (fun i hi => itemOk_good i ((List.all_eq_true.mp h2) i hi)) st

/-- An unknown element after known ones: 0 is returned, as for a formula without weight, but the table entries of the elements
before it have been increased. -/
theorem C26_rejected_not_undone (atof : List Char → ℚ) (st : ℕ → ℚ) :
    ∃ st', formulaToMwStoich elements atof ['H', 'X'] st = .err st' ∧ st' 1 = st 1 + 1 := by
  have l1 : lookup elements ['H'] = some 1 := by decide +kernel
  have l2 : lookup elements ['X'] = none := by decide +kernel
  refine ⟨Function.update st 1 (st 1 + 1), ?_, by simp⟩
  unfold formulaToMwStoich
  rw [if_neg (by simp)]
  show scan elements atof ['H', 'X', ' '] (clean 1 0 st) = _
  rw [scan_upper _ _ _ _ _ _ _ (by decide), scan]
  have h1 : mark 'X' = true := by decide
  have h2 : lower 'X' = false := by decide
  simp only [h1, if_true, endSym, h2, l1, Bool.not_false, Bool.true_and]
  simp only [ne_eq, List.cons_ne_self, not_false_eq_true, decide_true, if_true, Option.map_some, book, Nat.zero_lt_one,
    List.length_nil, reduceCtorEq, Char.reduceEq, if_false, Nat.not_lt_zero, List.nil_append, Nat.reduceLeDiff]
  rw [scan]
  have h3 : mark ' ' = true := by decide
  have h4 : lower ' ' = false := by decide
  simp [h3, endSym, h4, l2]

/-- More than one small letter: the third character of a symbol is written beyond the buffer. -/
theorem C26_long_symbol (E : Elements K) (atof : List Char → K) (u l m : Char) (t : List Char) (hu : upper u = true)
    (hl : lower l = true) (hm : lower m = true) (st : ℕ → K) :
    formulaToMwStoich E atof (u :: l :: m :: t) st = .overflow := by
  unfold formulaToMwStoich
  rw [if_neg (by simp)]
  show scan E atof (u :: l :: m :: (t ++ [' '])) (clean 1 0 st) = _
  rw [scan_upper _ _ _ _ _ _ _ hu, scan_lower _ _ _ _ _ _ _ _ hl, scan]
  have hv := lower_val hm
  have h1 : mark m = true := by simp [mark, lower_alpha hm]
  have h2 : m ≠ '(' := ne_of_val (by simp; omega)
  have h3 : m ≠ ')' := ne_of_val (by simp; omega)
  simp [h1, h2, h3, endSym, book, hm]

/-! ### Concrete cases -/

/-- Decimal numbers, for the examples: digits before the point only. -/
def atofInt (s : List Char) : ℚ := s.foldl (fun a c => 10 * a + (c.toNat - 48 : ℕ)) 0

def apatite : List Item :=
  [.atom ⟨20, ['5']⟩, .group [⟨15, []⟩, ⟨8, ['4']⟩] ['3'], .atom ⟨8, []⟩, .atom ⟨1, []⟩]

example : ("Ca5(PO4)3OH", apatite) ∈ formulas := by simp [formulas, formulas0, formulas1, apatite]
/-- Thirteen oxygens, three phosphorus. -/
example : count atofInt apatite 8 = 13 ∧ count atofInt apatite 15 = 3 ∧ count atofInt apatite 20 = 5 := by decide +kernel
/-- and so the weight is that of Ca5 P3 O13 H. -/
example : ∑ e ∈ Finset.range elements.ne, count atofInt apatite e * elements.wt e =
    5 * (4008 / 100) + 3 * (3097376 / 100000) + 13 * (159994 / 10000) + 10079 / 10000 := by decide +kernel

end Magma.Support.Formula
