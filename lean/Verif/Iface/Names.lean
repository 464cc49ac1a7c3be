import Mathlib.Data.Nat.Digits.Defs
import Mathlib.Data.Finset.Card
import Mathlib.Data.Finset.Image
import Mathlib.Data.List.Nodup
import Mathlib.Data.List.Basic
import Mathlib.Tactic.IntervalCases

/-!
Names of saved files: /repo/src/xlsx_writer.cpp 40-56 (results) and /repo/src/melts_interface.cpp 939-947 (input data).

The file system is the list of names that exist; it does not change while a name is chosen. The loop gets a budget of
tries; `C35_terminates` shows that one more than the number of existing files always suffices.
-/

namespace Magma.Iface.Names

/-- Decimal digit. -/
def digit (d : ℕ) : Char := Char.ofNat (48 + d)

/-- `std::to_string` of a positive number. -/
def toStr (n : ℕ) : List Char := ((Nat.digits 10 n).map digit).reverse

/-- `orig + " (" + std::to_string(n) + ")"`. -/
def numbered (orig : List Char) (n : ℕ) : List Char := orig ++ " (".toList ++ toStr n ++ ")".toList

/-- The `while` loop of melts_interface.cpp 942-946: current title, next number. -/
def loop (files : List (List Char)) (ext orig : List Char) : ℕ → List Char → ℕ → Option (List Char × ℕ)
  | 0, _, _ => none
  | k + 1, title, id =>
    if title ++ ext ∈ files then loop files ext orig k (numbered orig id) (id + 1) else some (title, id)

/-- melts_interface.cpp 939-947: an empty title becomes `Untitled`; the result is the file opened. -/
def meltsName (files : List (List Char)) (title : List Char) (k : ℕ) : Option (List Char) :=
  let orig := if title = [] then "Untitled".toList else title
  (loop files ".melts".toList orig k orig 1).map fun r => r.1 ++ ".melts".toList

/-- xlsx_writer.cpp 44-56: the name is rebuilt from the counter after the loop. -/
def xlsxName (files : List (List Char)) (orig : List Char) (k : ℕ) : Option (List Char) :=
  (loop files ".XLSX".toList orig k orig 1).map fun r =>
    orig ++ (if r.2 - 1 ≠ 0 then " (".toList ++ toStr (r.2 - 1) ++ ")".toList else []) ++ ".XLSX".toList

/-! ### Specification -/

/-- The `n`-th candidate: the name itself, then `name (1)`, `name (2)`, ... -/
def candidate (orig ext : List Char) (n : ℕ) : List Char := (if n = 0 then orig else numbered orig n) ++ ext

/-! ### Lemmas -/

theorem digit_inj {a b : ℕ} (ha : a < 10) (hb : b < 10) (h : digit a = digit b) : a = b := by
  have h' := congrArg Char.toNat h
  unfold digit at h'
  interval_cases a <;> interval_cases b <;> first | rfl | (exact absurd h' (by decide))

theorem toStr_inj {a b : ℕ} (h : toStr a = toStr b) : a = b := by
  have h1 := List.reverse_injective h
  have gen : ∀ l l' : List ℕ, (∀ x ∈ l, x < 10) → (∀ x ∈ l', x < 10) → l.map digit = l'.map digit → l = l' := by
    intro l
    induction l with
    | nil => intro l' _ _ h; cases l' with
      | nil => rfl
      | cons => simp at h
    | cons x l ih =>
      intro l' h1 h2 h
      cases l' with
      | nil => simp at h
      | cons y l' =>
        simp only [List.map_cons, List.cons.injEq] at h
        rw [digit_inj (h1 x (by simp)) (h2 y (by simp)) h.1,
          ih l' (fun z hz => h1 z (by simp [hz])) (fun z hz => h2 z (by simp [hz])) h.2]
  exact Nat.digits_inj_iff.mp (gen _ _ (fun x hx => Nat.digits_lt_base (by decide) hx)
    (fun x hx => Nat.digits_lt_base (by decide) hx) h1)

theorem candidate_inj {orig ext : List Char} {m n : ℕ} (h : candidate orig ext m = candidate orig ext n) : m = n := by
  have h := List.append_cancel_right h
  by_cases hm : m = 0 <;> by_cases hn : n = 0
  · omega
  · simp only [hm, hn, if_true, if_false, numbered] at h
    have := congrArg List.length h
    simp at this
  · simp only [hm, hn, if_true, if_false, numbered] at h
    have := congrArg List.length h
    simp at this
  · simp only [hm, hn, if_false, numbered] at h
    exact toStr_inj (List.append_cancel_left (List.append_cancel_right h))

theorem loop_spec (files : List (List Char)) (ext orig : List Char) : ∀ (k i : ℕ),
    match loop files ext orig k (if i = 0 then orig else numbered orig i) (i + 1) with
    | none => ∀ j, i ≤ j → j < i + k → candidate orig ext j ∈ files
    | some (t, id) => ∃ n, i ≤ n ∧ id = n + 1 ∧ t = (if n = 0 then orig else numbered orig n) ∧
        candidate orig ext n ∉ files ∧ ∀ j, i ≤ j → j < n → candidate orig ext j ∈ files
  | 0, i => by simp only [loop]; intro j h1 h2; omega
  | k + 1, i => by
    unfold loop
    by_cases h : (if i = 0 then orig else numbered orig i) ++ ext ∈ files
    · rw [if_pos h]
      have ih := loop_spec files ext orig k (i + 1)
      simp only [Nat.succ_ne_zero, if_false] at ih
      revert ih
      cases loop files ext orig k (numbered orig (i + 1)) (i + 1 + 1) with
      | none =>
        intro ih j h1 h2
        rcases Nat.eq_or_lt_of_le h1 with e | hlt
        · subst e; exact h
        · exact ih j hlt (by omega)
      | some r =>
        rintro ⟨n, h1, h2, h3, h4, h5⟩
        refine ⟨n, by omega, h2, h3, h4, fun j hj1 hj2 => ?_⟩
        rcases Nat.eq_or_lt_of_le hj1 with e | hlt
        · subst e; exact h
        · exact h5 j hlt hj2
    · rw [if_neg h]
      exact ⟨i, Nat.le_refl _, rfl, rfl, h, fun j h1 h2 => by omega⟩

/-- The tries cannot all fail: the candidates are distinct and there are only finitely many files. -/
theorem not_all_taken (files : List (List Char)) (orig ext : List Char) (k : ℕ) (hk : files.length < k) :
    ∃ j < k, candidate orig ext j ∉ files := by
  by_contra hno
  have hall : ∀ j < k, candidate orig ext j ∈ files := by
    intro j hj
    by_contra h
    exact hno ⟨j, hj, h⟩
  have hsub : (Finset.range k).image (candidate orig ext) ⊆ files.toFinset := by
    intro x hx
    obtain ⟨j, hj, rfl⟩ := Finset.mem_image.mp hx
    exact List.mem_toFinset.mpr (hall j (Finset.mem_range.mp hj))
  have h1 := Finset.card_le_card hsub
  rw [Finset.card_image_of_injective _ fun a b h => candidate_inj h, Finset.card_range] at h1
  exact absurd (le_trans h1 (List.toFinset_card_le files)) (by omega)

/-! ### C35 -/

/-- Results: a name chosen by the writer does not exist, is the requested one if that is free, and otherwise the first
free `name (n)`. -/
theorem C35_results (files : List (List Char)) (orig : List Char) (k : ℕ) (name : List Char)
    (h : xlsxName files orig k = some name) :
    name ∉ files ∧ ∃ n, name = candidate orig ".XLSX".toList n ∧ ∀ j < n, candidate orig ".XLSX".toList j ∈ files := by
  unfold xlsxName at h
  have hs := loop_spec files ".XLSX".toList orig k 0
  simp only [if_true] at hs
  revert hs h
  cases loop files ".XLSX".toList orig k orig (0 + 1) with
  | none => intro h; simp at h
  | some r =>
    rintro h ⟨n, _, h2, h3, h4, h5⟩
    simp only [Option.map_some, Option.some.injEq] at h
    have e : name = candidate orig ".XLSX".toList n := by
      rw [← h, h2]
      unfold candidate numbered
      by_cases hn : n = 0
      · simp [hn]
      · simp [hn]
    exact ⟨e ▸ h4, n, e, fun j hj => h5 j (Nat.zero_le _) hj⟩

/-- Input data: the same, with `Untitled` for an empty title. -/
theorem C35_input (files : List (List Char)) (title : List Char) (k : ℕ) (name : List Char)
    (h : meltsName files title k = some name) :
    name ∉ files ∧ ∃ n, name = candidate (if title = [] then "Untitled".toList else title) ".melts".toList n ∧
      ∀ j < n, candidate (if title = [] then "Untitled".toList else title) ".melts".toList j ∈ files := by
  unfold meltsName at h
  simp only at h
  revert h
  generalize (if title = [] then "Untitled".toList else title) = orig
  have hs := loop_spec files ".melts".toList orig k 0
  simp only [if_true] at hs
  revert hs
  cases loop files ".melts".toList orig k orig (0 + 1) with
  | none => intro _ h; simp at h
  | some r =>
    rintro ⟨n, _, h2, h3, h4, h5⟩ h
    simp only [Option.map_some, Option.some.injEq] at h
    have e : name = candidate orig ".melts".toList n := by rw [← h, h3]; rfl
    exact ⟨e ▸ h4, n, e, fun j hj => h5 j (Nat.zero_le _) hj⟩

/-- A name is always found, after at most one try more than there are files. -/
theorem C35_terminates (files : List (List Char)) (orig : List Char) :
    xlsxName files orig (files.length + 1) ≠ none ∧ meltsName files orig (files.length + 1) ≠ none := by
  constructor
  · unfold xlsxName
    rw [ne_eq, Option.map_eq_none_iff]
    intro h
    have hs := loop_spec files ".XLSX".toList orig (files.length + 1) 0
    simp only [if_true, Nat.zero_add, h] at hs
    obtain ⟨j, hj, hn⟩ := not_all_taken files orig ".XLSX".toList _ (Nat.lt_succ_self _)
    exact hn (hs j (Nat.zero_le _) hj)
  · unfold meltsName
    simp only
    generalize (if orig = [] then "Untitled".toList else orig) = orig
    rw [ne_eq, Option.map_eq_none_iff]
    intro h
    have hs := loop_spec files ".melts".toList orig (files.length + 1) 0
    simp only [if_true, Nat.zero_add, h] at hs
    obtain ⟨j, hj, hn⟩ := not_all_taken files orig ".melts".toList _ (Nat.lt_succ_self _)
    exact hn (hs j (Nat.zero_le _) hj)

/-! ### Concrete cases -/

example : xlsxName ["run.XLSX".toList, "run (1).XLSX".toList, "run (3).XLSX".toList] "run".toList 9 =
    some "run (2).XLSX".toList := by decide +kernel
example : meltsName [] [] 1 = some "Untitled.melts".toList := by decide +kernel
example : toStr 120 = "120".toList := by decide +kernel

end Magma.Iface.Names
