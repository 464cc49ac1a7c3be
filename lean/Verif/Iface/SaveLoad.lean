import Verif.Iface.Names
import Mathlib.Data.Rat.Floor
import Mathlib.Algebra.Order.Floor.Ring
import Mathlib.Algebra.Order.Round
import Mathlib.Tactic.Linarith
import Mathlib.Tactic.Ring
import Mathlib.Tactic.FieldSimp
import Mathlib.Tactic.Positivity

/-!
Saving the inputs of a run and loading them back: `SaveMeltsInputData` and `LoadFromFile`,
/repo/src/melts_interface.cpp 927-1038 and 1070-1344, without assimilants (`dspAssimMass == 0`, so nothing of lines
1033-1052 is written) at the level of the characters of the file.

Numbers are rationals (every finite double is one); infinities and NaN are not covered.
-/

namespace Magma.Iface.SaveLoad

open Magma.Iface.Names (digit toStr)

/-- Text. -/
abbrev Text := List Char

/-! ### Library functions -/

/-- `std::transform(..., ::tolower)`, "C" locale. -/
def low (s : Text) : Text := s.map Char.toLower

/-- `s.find(k) != std::string::npos`. -/
def has (k s : Text) : Bool := s.tails.any k.isPrefixOf

/-- `s.substr(n)`; `none` is `std::out_of_range`. -/
def sub (s : Text) (n : ℕ) : Option Text := if n ≤ s.length then some (s.drop n) else none

/-- The value of a string of decimal digits. -/
def num (s : Text) : ℕ := s.foldl (fun a c => 10 * a + (c.toNat - 48)) 0

/-- `std::stod`: leading blanks, sign, digits, fraction; what follows is ignored. `none` is `std::invalid_argument`.
Exponents, hexadecimal numbers, infinities and NaN are left out (`SaveMeltsInputData` never writes them). -/
def stod (s : Text) : Option ℚ :=
  let s := s.dropWhile (· = ' ')
  let neg := s.head? = some '-'
  let s := if s.head? = some '-' ∨ s.head? = some '+' then s.tail else s
  let a := s.takeWhile Char.isDigit
  let r := s.dropWhile Char.isDigit
  let b := if r.head? = some '.' then r.tail.takeWhile Char.isDigit else []
  if a = [] ∧ b = [] then none
  else
    let v : ℚ := num a + num b / 10 ^ b.length
    some (if neg then -v else v)

/-- The last `n` decimal digits of `k`. -/
def frac : ℕ → ℕ → Text
  | 0, _ => []
  | n + 1, k => frac n (k / 10) ++ [digit (k % 10)]

/-- Rounding to the nearest integer, ties to even (the default rounding of the number formatting). -/
def nearest (a : ℚ) : ℕ :=
  let f := ⌊a⌋₊
  if a - f < 1 / 2 then f else if 1 / 2 < a - f then f + 1 else if f % 2 = 0 then f else f + 1

/-- `MyUtil::DoubleAsString(x, n)`, e_utility.cpp 88-92: `std::fixed << std::setprecision(n)`. -/
def das (x : ℚ) (n : ℕ) : Text :=
  let k := nearest (|x| * 10 ^ n)
  (if x < 0 then ['-'] else []) ++ (if k / 10 ^ n = 0 then ['0'] else toStr (k / 10 ^ n)) ++
    (if n = 0 then [] else '.' :: frac n k)

/-- `std::getline` until the end of the file: a last line without line end counts if it is not empty. -/
def getl : Text → Text → List Text
  | acc, [] => if acc = [] then [] else [acc.reverse]
  | acc, c :: s => if c = '\n' then acc.reverse :: getl [] s else getl (c :: acc) s

/-- The lines of a file. -/
def lines (s : Text) : List Text := getl [] s

/-! ### The settings -/

/-- `step_inc`, melts_interface.hpp 803-809. -/
structure Inc where
  t : ℚ
  p : ℚ
  h : ℚ
  s : ℚ
  v : ℚ
deriving DecidableEq

/-- The settings of a run: title, grams of each oxide (`bulkComp[i]*mw`), temperature (kelvin), pressure, increments,
oxygen-buffer path and offset, which phases (in the order of the table) are suppressed (`incSolids[j] == FALSE`), and
the switches. -/
structure Cfg where
  title : Text
  grams : Fin 19 → ℚ
  tK : ℚ
  p : ℚ
  inc : Inc
  path : ℤ
  offset : ℚ
  supp : ℕ → Bool
  fracSol : Bool
  fracLiq : Bool
  fracFlu : Bool
  multi : Bool
  isenthalpic : Bool
  isentropic : Bool
  isochoric : Bool

/-- `bulkSystem[i].label`, liq_struct_data.h 174-196. -/
def oxide : Fin 19 → Text := fun i =>
  ["SiO2".toList, "TiO2".toList, "Al2O3".toList, "Fe2O3".toList, "Cr2O3".toList, "FeO".toList, "MnO".toList, "MgO".toList, "NiO".toList,
    "CoO".toList, "CaO".toList, "Na2O".toList, "K2O".toList, "P2O5".toList, "H2O".toList, "CO2".toList, "SO3".toList, "Cl2O-1".toList,
    "F2O-1".toList].getD i []

/-- The name of an oxygen-buffer path, melts_interface.cpp 979-1003. -/
def pathName (p : ℤ) : Text :=
  if p = 1 then "HM".toList else if p = 2 then "NNO".toList else if p = 3 then "FMQ".toList
  else if p = 4 then "COH".toList else if p = 5 then "IW".toList else if p = 6 then "+3FMQ".toList
  else if p = 7 then "+2FMQ".toList else if p = 8 then "+1FMQ".toList else if p = 9 then "-1FMQ".toList
  else if p = 10 then "-2FMQ".toList else if p = 11 then "-3FMQ".toList else if p = 12 then "-4FMQ".toList
  else if p = 13 then "-5FMQ".toList else if p = 14 then "-6FMQ".toList else if p = 15 then "-7FMQ".toList
  else if p = 16 then "-8FMQ".toList else if p = 17 then "-9FMQ".toList else if p = 18 then "+0.5FMQ".toList
  else if p = 19 then "+1.5FMQ".toList else "None".toList

/-- One line of the file: a key and what follows it. -/
def kv (key val : Text) : Text := key ++ ':' :: ' ' :: val

/-- The lines `SaveMeltsInputData` writes, melts_interface.cpp 951-1030; `labels` are the labels of the phases. -/
def written (labels : List Text) (c : Cfg) : List Text :=
  [kv "Title".toList c.title]
  ++ ((List.finRange 19).filter fun i => c.grams i ≠ 0).map
      (fun i => kv "Initial Composition".toList (oxide i ++ ' ' :: das (c.grams i) 4))
  ++ [kv "Initial Temperature".toList (das (max (c.tK - 5463 / 20) 0) 2), kv "Initial Pressure".toList (das c.p 2)]
  ++ (if c.isenthalpic then
        [kv "Increment Pressure".toList (das c.inc.p 2), kv "Increment Enthalpy".toList (das c.inc.h 2)]
      else if c.isentropic then
        [kv "Increment Pressure".toList (das c.inc.p 2), kv "Increment Entropy".toList (das c.inc.s 2)]
      else if c.isochoric then
        [kv "Increment Temperature".toList (das c.inc.t 2), kv "Increment Volume".toList (das c.inc.v 2)]
      else
        [kv "Increment Temperature".toList (das c.inc.t 2), kv "Increment Pressure".toList (das c.inc.p 2)])
  ++ [kv "log fo2 Path".toList (pathName c.path), kv "log fo2 Offset".toList (das c.offset 1)]
  ++ ((List.range labels.length).filter c.supp).map (fun j => kv "Suppress".toList (labels.getD j []))
  ++ (if c.fracSol then [kv "Mode".toList "Fractionate Solids".toList] else [])
  ++ (if c.fracLiq then [kv "Mode".toList "Fractionate Liquids".toList] else [])
  ++ (if c.fracFlu then [kv "Mode".toList "Fractionate Fluids".toList] else [])
  ++ (if c.multi then [kv "Mode".toList "Multiple Liquids".toList] else [])
  ++ (if c.isenthalpic then [kv "Mode".toList "Isenthalpic".toList] else [])
  ++ (if c.isentropic then [kv "Mode".toList "Isentropic".toList] else [])
  ++ (if c.isochoric then [kv "Mode".toList "Isochoric".toList] else [])

/-- The file `SaveMeltsInputData` writes: every line ends with a line end. -/
def save (labels : List Text) (c : Cfg) : Text := (written labels c).flatMap fun l => l ++ ['\n']

/-! ### Loading -/

/-- The variables of `LoadFromFile`: `c` holds the fields of the state and the local variables that end up in them
(`c.tK` is `init_temp`, in Celsius until the end of the function). -/
structure St where
  c : Cfg
  finalT : ℚ
  finalP : ℚ

/-- melts_interface.cpp 1157-1216: path and, for the ones with a preset offset, the offset. -/
def readPath (s : Text) : ℤ × Option ℚ :=
  if has "none".toList s then (0, none)
  else if has "hm".toList s then (1, none)
  else if has "nno".toList s then (2, none)
  else if !has "+".toList s && !has "-".toList s && has "fmq".toList s then (3, none)
  else if has "coh".toList s then (4, none)
  else if has "iw".toList s then (5, none)
  else if has "+3fmq".toList s then (3, some 3)
  else if has "+2fmq".toList s then (3, some 2)
  else if has "+1fmq".toList s then (3, some 1)
  else if has "-1fmq".toList s then (3, some (-1))
  else if has "-2fmq".toList s then (3, some (-2))
  else if has "-3fmq".toList s then (3, some (-3))
  else if has "-4fmq".toList s then (3, some (-4))
  else if has "-5fmq".toList s then (3, some (-5))
  else if has "-6fmq".toList s then (3, some (-6))
  else if has "-7fmq".toList s then (3, some (-7))
  else if has "-8fmq".toList s then (3, some (-8))
  else if has "-9fmq".toList s then (3, some (-9))
  else if has "+0.5fmq".toList s then (3, some (1 / 2))
  else if has "+1.5fmq".toList s then (3, some (3 / 2))
  else (0, none)

/-- melts_interface.cpp 1101-1115: the first oxide whose label occurs anywhere in the line gets the number that follows
as many characters as the key and that label have. -/
def readOxide (line : Text) (g : Fin 19 → ℚ) : Option (Fin 19 → ℚ) :=
  match (List.finRange 19).find? fun i => has (low (oxide i)) line with
  | none => some g
  | some i => do
    let s ← sub line ("initial composition: ".toList.length + (oxide i).length)
    let x ← stod s
    some (Function.update g i x)

/-- melts_interface.cpp 1222-1234: the first phase with that label. -/
def readSupp (labels : List Text) (label : Text) (supp : ℕ → Bool) : ℕ → Bool :=
  match labels.findIdx? (· = label) with
  | none => supp
  | some j => Function.update supp j true

/-- The number that starts at column `n`. -/
def numAt (line : Text) (n : ℕ) : Option ℚ := (sub line n).bind stod

/-- One line of the file, melts_interface.cpp 1095-1269 (lines about assimilants, 1271-1318, change nothing here). -/
def step (labels : List Text) (σ : St) (raw : Text) : Option St :=
  if has "Title:".toList raw || has "title:".toList raw then
    (sub raw 7).map fun s => { σ with c := { σ.c with title := s } }
  else
    let line := low raw
    if has "initial composition:".toList line then
      (readOxide line σ.c.grams).map fun g => { σ with c := { σ.c with grams := g } }
    else if has "initial temperature:".toList line then
      (numAt line 21).map fun x => { σ with c := { σ.c with tK := x } }
    else if has "initial pressure:".toList line then
      (numAt line 18).map fun x => { σ with c := { σ.c with p := x } }
    else if has "final temperature:".toList line then (numAt line 19).map fun x => { σ with finalT := x }
    else if has "final pressure:".toList line then (numAt line 16).map fun x => { σ with finalP := x }
    else if has "increment temperature:".toList line then
      (numAt line 23).map fun x => { σ with c := { σ.c with inc := { σ.c.inc with t := x } } }
    else if has "increment pressure:".toList line then
      (numAt line 20).map fun x => { σ with c := { σ.c with inc := { σ.c.inc with p := x } } }
    else if has "increment enthalpy:".toList line then
      (numAt line 20).map fun x => { σ with c := { σ.c with inc := { σ.c.inc with h := x } } }
    else if has "increment entropy:".toList line then
      (numAt line 19).map fun x => { σ with c := { σ.c with inc := { σ.c.inc with s := x } } }
    else if has "increment volume:".toList line then
      (numAt line 18).map fun x => { σ with c := { σ.c with inc := { σ.c.inc with v := x } } }
    else if has "log fo2 path:".toList line then
      (sub line 14).map fun s => { σ with c := { σ.c with path := (readPath s).1, offset := (readPath s).2.getD σ.c.offset } }
    else if has "log fo2 offset:".toList line then
      (numAt line 16).map fun x => { σ with c := { σ.c with offset := x } }
    else if has "suppress:".toList line then
      (sub line 10).map fun s => { σ with c := { σ.c with supp := readSupp labels s σ.c.supp } }
    else if has "mode: fractionate solids".toList line then some { σ with c := { σ.c with fracSol := true } }
    else if has "mode: fractionate liquids".toList line then some { σ with c := { σ.c with fracLiq := true } }
    else if has "mode: fractionate fluids".toList line then some { σ with c := { σ.c with fracFlu := true } }
    else if has "mode: multiple liquids".toList line then some { σ with c := { σ.c with multi := true } }
    else if has "mode: isenthalpic".toList line then some { σ with c := { σ.c with isenthalpic := true } }
    else if has "mode: isentropic".toList line then some { σ with c := { σ.c with isentropic := true } }
    else if has "mode: isochoric".toList line then some { σ with c := { σ.c with isochoric := true } }
    else some σ

/-- melts_interface.cpp 1321-1332: with a final value in the file, the increment points towards it. -/
def direct (inc init final : ℚ) : ℚ :=
  if inc ≠ 0 ∧ init ≠ 0 ∧ final ≠ 0 then (if final < init then -|inc| else |inc|) else inc

/-- Before the first line: `CreateSilminState` (melts_interface.cpp 159-234) and the initialisations of lines 1073-1084.
Title, increments and offset are the ones from before. -/
def fresh (title : Text) (inc : Inc) (offset : ℚ) : St where
  c := { title := title, grams := fun _ => 0, tK := 0, p := 0, inc := inc, path := 0, offset := offset, supp := fun _ => false,
         fracSol := false, fracLiq := false, fracFlu := false, multi := false, isenthalpic := false,
         isentropic := false, isochoric := false }
  finalT := 0
  finalP := 0

/-- melts_interface.cpp 1321-1337: `SetInitialTP` adds 273.15 to the temperature. -/
def finish (σ : St) : Cfg :=
  { σ.c with
    inc := { σ.c.inc with t := direct σ.c.inc.t σ.c.tK σ.finalT, p := direct σ.c.inc.p σ.c.p σ.finalP }
    tK := σ.c.tK + 5463 / 20 }

/-- `LoadFromFile`, melts_interface.cpp 1070-1337, of a file with this content; `none` is an exception. -/
def load (labels : List Text) (title : Text) (inc : Inc) (offset : ℚ) (file : Text) : Option Cfg :=
  ((lines file).foldlM (step labels) (fresh title inc offset)).map finish

/-! ### Numbers -/

/-- `x` rounded to `n` decimals. -/
def rnd (n : ℕ) (x : ℚ) : ℚ := (if x < 0 then -1 else 1) * ((nearest (|x| * 10 ^ n) : ℚ) / 10 ^ n)

theorem digit_isDigit {d : ℕ} (h : d < 10) : (digit d).isDigit = true := by
  interval_cases d <;> decide

theorem digit_val {d : ℕ} (h : d < 10) : (digit d).toNat - 48 = d := by
  interval_cases d <;> decide

theorem num_append (a : Text) (c : Char) : num (a ++ [c]) = 10 * num a + (c.toNat - 48) := by
  simp [num, List.foldl_append]

theorem num_toStr (k : ℕ) : num (toStr k) = k := by
  induction k using Nat.strong_induction_on with
  | _ k ih =>
    by_cases h : k = 0
    · subst h; rfl
    · have e : toStr k = toStr (k / 10) ++ [digit (k % 10)] := by
        unfold toStr
        rw [Nat.digits_def' (by norm_num) (Nat.pos_of_ne_zero h)]
        simp
      rw [e, num_append, ih _ (Nat.div_lt_self (Nat.pos_of_ne_zero h) (by norm_num)), digit_val (Nat.mod_lt _ (by norm_num))]
      omega

theorem toStr_digits (k : ℕ) : ∀ c ∈ toStr k, c.isDigit = true := by
  intro c hc
  simp only [toStr, List.mem_reverse, List.mem_map] at hc
  obtain ⟨d, hd, rfl⟩ := hc
  exact digit_isDigit (Nat.digits_lt_base (by norm_num) hd)

theorem toStr_ne_nil {k : ℕ} (h : k ≠ 0) : toStr k ≠ [] := by
  simp [toStr, Nat.digits_ne_nil_iff_ne_zero.mpr h]

theorem frac_length : ∀ n k, (frac n k).length = n
  | 0, _ => rfl
  | n + 1, k => by simp [frac, frac_length n]

theorem frac_digits : ∀ n k, ∀ c ∈ frac n k, c.isDigit = true
  | 0, _ => by simp [frac]
  | n + 1, k => by
    intro c hc
    simp only [frac, List.mem_append, List.mem_singleton] at hc
    rcases hc with hc | rfl
    · exact frac_digits n _ c hc
    · exact digit_isDigit (Nat.mod_lt _ (by norm_num))

theorem num_frac : ∀ n k, num (frac n k) = k % 10 ^ n
  | 0, k => by simp [frac, num, Nat.mod_one]
  | n + 1, k => by
    rw [frac, num_append, num_frac n, digit_val (Nat.mod_lt _ (by norm_num)), pow_succ, mul_comm (10 ^ n) 10, Nat.mod_mul]
    ring

/-- The whole part as it is printed. -/
def whole (k : ℕ) : Text := if k = 0 then ['0'] else toStr k

theorem whole_digits (k : ℕ) : ∀ c ∈ whole k, c.isDigit = true := by
  intro c hc
  unfold whole at hc
  split_ifs at hc
  · simp at hc; subst hc; decide
  · exact toStr_digits k c hc

theorem whole_ne (k : ℕ) : whole k ≠ [] := by
  unfold whole; split_ifs with h
  · simp
  · exact toStr_ne_nil h

theorem num_whole (k : ℕ) : num (whole k) = k := by
  unfold whole; split_ifs with h
  · subst h; decide
  · exact num_toStr k

theorem das_eq (x : ℚ) (n : ℕ) : das x (n + 1) = (if x < 0 then ['-'] else []) ++ (whole (nearest (|x| * 10 ^ (n + 1)) / 10 ^ (n + 1)) ++
    '.' :: frac (n + 1) (nearest (|x| * 10 ^ (n + 1)))) := by
  simp [das, whole]

theorem stod_head {a : Char} {s : Text} (h1 : a ≠ ' ') (neg : Bool) (h2 : a ≠ '-') (h3 : a ≠ '+') :
    stod ((if neg then ['-'] else []) ++ a :: s) =
      (if (a :: s).takeWhile Char.isDigit = [] ∧
          (if ((a :: s).dropWhile Char.isDigit).head? = some '.' then
            ((a :: s).dropWhile Char.isDigit).tail.takeWhile Char.isDigit else []) = [] then none
      else some ((if neg then -1 else 1) * ((num ((a :: s).takeWhile Char.isDigit) : ℚ) +
        num (if ((a :: s).dropWhile Char.isDigit).head? = some '.' then
            ((a :: s).dropWhile Char.isDigit).tail.takeWhile Char.isDigit else []) /
          10 ^ (if ((a :: s).dropWhile Char.isDigit).head? = some '.' then
            ((a :: s).dropWhile Char.isDigit).tail.takeWhile Char.isDigit else []).length)) : Option ℚ) := by
  cases neg
  · have d : (a :: s).dropWhile (fun c => decide (c = ' ')) = a :: s := by simp [h1]
    unfold stod
    simp only [Bool.false_eq_true, if_false, List.nil_append, d]
    have e1 : ((a :: s).head? = some '-') = False := by simp [h2]
    have e2 : ((a :: s).head? = some '+') = False := by simp [h3]
    simp only [e1, e2, or_self, if_false, one_mul]
  · have d : ('-' :: a :: s).dropWhile (fun c => decide (c = ' ')) = '-' :: a :: s := by simp
    unfold stod
    simp only [if_true, List.cons_append, List.nil_append, d]
    have e1 : (('-' :: a :: s).head? = some '-') = True := by simp
    simp only [e1, true_or, if_true, List.tail_cons, neg_mul, one_mul]

theorem stod_plain {w f : Text} (hw : ∀ c ∈ w, c.isDigit = true) (hf : ∀ c ∈ f, c.isDigit = true) (h : w ≠ []) (neg : Bool) :
    stod ((if neg then ['-'] else []) ++ (w ++ '.' :: f)) =
      some ((if neg then (-1 : ℚ) else 1) * ((num w : ℚ) + (num f : ℚ) / 10 ^ f.length)) := by
  have t1 : (w ++ '.' :: f).takeWhile Char.isDigit = w := by
    rw [List.takeWhile_append_of_pos hw]; simp [List.takeWhile]
  have t2 : (w ++ '.' :: f).dropWhile Char.isDigit = '.' :: f := by
    rw [List.dropWhile_append_of_pos hw]; simp [List.dropWhile]
  have t3 : f.takeWhile Char.isDigit = f := by
    have := List.takeWhile_append_of_pos (l₂ := []) hf
    simpa using this
  obtain ⟨a, w', rfl⟩ : ∃ a w', w = a :: w' := List.exists_cons_of_ne_nil h
  have ha : a.isDigit = true := hw a (by simp)
  have n1 : a ≠ ' ' := by rintro rfl; exact absurd ha (by decide)
  have n2 : a ≠ '-' := by rintro rfl; exact absurd ha (by decide)
  have n3 : a ≠ '+' := by rintro rfl; exact absurd ha (by decide)
  rw [List.cons_append, stod_head n1 neg n2 n3, ← List.cons_append, t1, t2]
  simp [t3]

/-- Reading back a number the program wrote. -/
theorem stod_das (x : ℚ) (n : ℕ) : stod (das x (n + 1)) = some (rnd (n + 1) x) := by
  rw [das_eq]
  have := stod_plain (whole_digits (nearest (|x| * 10 ^ (n + 1)) / 10 ^ (n + 1)))
    (frac_digits (n + 1) (nearest (|x| * 10 ^ (n + 1)))) (whole_ne _) (decide (x < 0))
  simp only [decide_eq_true_eq] at this
  rw [this, num_whole, num_frac, frac_length, rnd]
  generalize nearest (|x| * 10 ^ (n + 1)) = k
  have h : (k : ℚ) = (10 ^ (n + 1) : ℕ) * (k / 10 ^ (n + 1) : ℕ) + (k % 10 ^ (n + 1) : ℕ) := by
    exact_mod_cast (Nat.div_add_mod k (10 ^ (n + 1))).symm
  congr 2
  rw [h]
  push_cast
  field_simp

theorem stod_blank (s : Text) : stod (' ' :: s) = stod s := by simp [stod, List.dropWhile]

/-- Characters of numbers. -/
def numeric (c : Char) : Bool := c.isDigit || c = '.' || c = '-'

theorem das_numeric (x : ℚ) (n : ℕ) : ∀ c ∈ das x (n + 1), numeric c = true := by
  intro c hc
  rw [das_eq] at hc
  simp only [List.mem_append, List.mem_cons] at hc
  rcases hc with hc | hc | rfl | hc
  · split_ifs at hc
    · simp at hc; subst hc; decide
    · simp at hc
  · simp [numeric, whole_digits _ c hc]
  · decide
  · simp [numeric, frac_digits _ _ c hc]

theorem nearest_close {a : ℚ} (h : 0 ≤ a) : |(nearest a : ℚ) - a| ≤ 1 / 2 := by
  have h1 := Nat.floor_le h
  have h2 := Nat.lt_floor_add_one a
  unfold nearest
  rw [abs_le]
  dsimp only
  split_ifs <;> push_cast <;> constructor <;> linarith

theorem nearest_nat (k : ℕ) : nearest (k : ℚ) = k := by
  simp [nearest]

/-- A number changes by at most half a unit in the last decimal. -/
theorem rnd_close (n : ℕ) (x : ℚ) : |rnd n x - x| ≤ 1 / 2 / 10 ^ n := by
  have hp : (0 : ℚ) < 10 ^ n := by positivity
  have h := nearest_close (a := |x| * 10 ^ n) (by positivity)
  have e : rnd n x - x = (if x < 0 then -1 else 1) * ((nearest (|x| * 10 ^ n) - |x| * 10 ^ n) / 10 ^ n) := by
    unfold rnd
    split_ifs with hx
    · rw [abs_of_neg hx]; field_simp; ring
    · rw [abs_of_nonneg (not_lt.mp hx)]; field_simp
  rw [e, abs_mul, abs_div, abs_of_pos hp]
  have : |(if x < 0 then -1 else 1 : ℚ)| = 1 := by split_ifs <;> simp
  rw [this, one_mul]
  gcongr

/-- A number with at most `n` decimals does not change. -/
theorem rnd_exact {n : ℕ} {x : ℚ} (h : ∃ k : ℤ, x * 10 ^ n = k) : rnd n x = x := by
  obtain ⟨k, hk⟩ := h
  have hp : (0 : ℚ) < 10 ^ n := by positivity
  have e : |x| * 10 ^ n = (k.natAbs : ℚ) := by
    rw [Nat.cast_natAbs, ← abs_of_pos hp, ← abs_mul, hk]; simp
  unfold rnd
  rw [e, nearest_nat, ← e]
  split_ifs with hx
  · rw [abs_of_neg hx]; field_simp
  · rw [abs_of_nonneg (not_lt.mp hx)]; field_simp

theorem rnd_decimals (n : ℕ) (x : ℚ) : ∃ k : ℤ, rnd n x * 10 ^ n = k := by
  refine ⟨(if x < 0 then -1 else 1) * nearest (|x| * 10 ^ n), ?_⟩
  have hp : (0 : ℚ) < 10 ^ n := by positivity
  unfold rnd
  split_ifs <;> push_cast <;> field_simp

/-! ### Searching in a line -/

theorem has_iff (k s : Text) : has k s = true ↔ k <:+: s := by
  simp only [has, List.any_eq_true, List.mem_tails, List.isPrefixOf_iff_prefix, List.infix_iff_prefix_suffix]
  exact ⟨fun ⟨t, h1, h2⟩ => ⟨t, h2, h1⟩, fun ⟨t, h1, h2⟩ => ⟨t, h2, h1⟩⟩

/-- A key with one colon is found in a line with one colon if and only if the colons match. -/
theorem has_colon {k rest pre tail : Text} (hk : ':' ∉ k) (hp : ':' ∉ pre) (ht : ':' ∉ tail) :
    has (k ++ ':' :: rest) (pre ++ ':' :: tail) = (k.isSuffixOf pre && rest.isPrefixOf tail) := by
  rw [Bool.eq_iff_iff, has_iff, Bool.and_eq_true, List.isSuffixOf_iff_suffix, List.isPrefixOf_iff_prefix]
  constructor
  · rintro ⟨a, b, h⟩
    have h' : (a ++ k) ++ ':' :: (rest ++ b) = pre ++ ':' :: tail := by simpa using h
    rcases List.append_eq_append_iff.mp h' with ⟨u, e1, e2⟩ | ⟨u, e1, e2⟩
    · cases u with
      | nil =>
        simp only [List.append_nil, List.nil_append, List.cons.injEq, true_and] at e1 e2
        exact ⟨⟨a, e1.symm⟩, ⟨b, e2⟩⟩
      | cons x u =>
        simp only [List.cons_append, List.cons.injEq] at e2
        exact absurd (by rw [e1, ← e2.1]; simp : ':' ∈ pre) hp
    · cases u with
      | nil =>
        simp only [List.append_nil, List.nil_append, List.cons.injEq, true_and] at e1 e2
        exact ⟨⟨a, e1⟩, ⟨b, e2.symm⟩⟩
      | cons x u =>
        simp only [List.cons_append, List.cons.injEq] at e2
        exact absurd (by rw [e2.2]; simp : ':' ∈ tail) ht
  · rintro ⟨⟨a, rfl⟩, ⟨b, rfl⟩⟩
    exact ⟨a, b, by simp⟩

theorem low_append (a b : Text) : low (a ++ b) = low a ++ low b := List.map_append ..

theorem low_numeric {s : Text} (h : ∀ c ∈ s, numeric c = true) : low s = s := by
  unfold low
  conv_rhs => rw [← List.map_id s]
  refine List.map_congr_left fun c hc => ?_
  have := h c hc
  simp only [numeric, Bool.or_eq_true, decide_eq_true_eq] at this
  rcases this with (h | rfl) | rfl
  · simp only [Char.isDigit, Bool.and_eq_true, decide_eq_true_eq] at h
    unfold Char.toLower
    rw [dif_neg]
    · rfl
    · intro h2
      have a1 := h.2
      have a2 := h2.1
      exact absurd (UInt32.le_trans a2 a1) (by decide)
  · decide
  · decide

theorem not_numeric {s : Text} (h : ∀ c ∈ s, numeric c = true) {c : Char} (hc : numeric c = false) : c ∉ s :=
  fun m => by rw [h c m] at hc; exact absurd hc (by decide)

/-- What `step` does with a line `pre: val`. -/
private def stepK (labels : List Text) (σ : St) (pre val : Text) : Option St :=
  if "Title".toList.isSuffixOf pre || "title".toList.isSuffixOf pre then
    (sub (kv pre val) 7).map fun s => { σ with c := { σ.c with title := s } }
  else
    let line := kv (low pre) (low val)
    if "initial composition".toList.isSuffixOf (low pre) then
      (readOxide line σ.c.grams).map fun g => { σ with c := { σ.c with grams := g } }
    else if "initial temperature".toList.isSuffixOf (low pre) then
      (numAt line 21).map fun x => { σ with c := { σ.c with tK := x } }
    else if "initial pressure".toList.isSuffixOf (low pre) then
      (numAt line 18).map fun x => { σ with c := { σ.c with p := x } }
    else if "final temperature".toList.isSuffixOf (low pre) then (numAt line 19).map fun x => { σ with finalT := x }
    else if "final pressure".toList.isSuffixOf (low pre) then (numAt line 16).map fun x => { σ with finalP := x }
    else if "increment temperature".toList.isSuffixOf (low pre) then
      (numAt line 23).map fun x => { σ with c := { σ.c with inc := { σ.c.inc with t := x } } }
    else if "increment pressure".toList.isSuffixOf (low pre) then
      (numAt line 20).map fun x => { σ with c := { σ.c with inc := { σ.c.inc with p := x } } }
    else if "increment enthalpy".toList.isSuffixOf (low pre) then
      (numAt line 20).map fun x => { σ with c := { σ.c with inc := { σ.c.inc with h := x } } }
    else if "increment entropy".toList.isSuffixOf (low pre) then
      (numAt line 19).map fun x => { σ with c := { σ.c with inc := { σ.c.inc with s := x } } }
    else if "increment volume".toList.isSuffixOf (low pre) then
      (numAt line 18).map fun x => { σ with c := { σ.c with inc := { σ.c.inc with v := x } } }
    else if "log fo2 path".toList.isSuffixOf (low pre) then
      (sub line 14).map fun s => { σ with c := { σ.c with path := (readPath s).1, offset := (readPath s).2.getD σ.c.offset } }
    else if "log fo2 offset".toList.isSuffixOf (low pre) then
      (numAt line 16).map fun x => { σ with c := { σ.c with offset := x } }
    else if "suppress".toList.isSuffixOf (low pre) then
      (sub line 10).map fun s => { σ with c := { σ.c with supp := readSupp labels s σ.c.supp } }
    else if ("mode".toList.isSuffixOf (low pre) && " fractionate solids".toList.isPrefixOf (' ' :: low val)) then some { σ with c := { σ.c with fracSol := true } }
    else if ("mode".toList.isSuffixOf (low pre) && " fractionate liquids".toList.isPrefixOf (' ' :: low val)) then some { σ with c := { σ.c with fracLiq := true } }
    else if ("mode".toList.isSuffixOf (low pre) && " fractionate fluids".toList.isPrefixOf (' ' :: low val)) then some { σ with c := { σ.c with fracFlu := true } }
    else if ("mode".toList.isSuffixOf (low pre) && " multiple liquids".toList.isPrefixOf (' ' :: low val)) then some { σ with c := { σ.c with multi := true } }
    else if ("mode".toList.isSuffixOf (low pre) && " isenthalpic".toList.isPrefixOf (' ' :: low val)) then some { σ with c := { σ.c with isenthalpic := true } }
    else if ("mode".toList.isSuffixOf (low pre) && " isentropic".toList.isPrefixOf (' ' :: low val)) then some { σ with c := { σ.c with isentropic := true } }
    else if ("mode".toList.isSuffixOf (low pre) && " isochoric".toList.isPrefixOf (' ' :: low val)) then some { σ with c := { σ.c with isochoric := true } }
    else some σ

theorem step_kv (labels : List Text) (σ : St) {pre val : Text} (hp : ':' ∉ pre) (hv : ':' ∉ val) (hlp : ':' ∉ low pre)
    (hlv : ':' ∉ low val) : step labels σ (kv pre val) = stepK labels σ pre val := by
  have hl : low (kv pre val) = kv (low pre) (low val) := by simp [kv, low]
  have hv' : ':' ∉ ' ' :: val := by simpa using hv
  have ht : ':' ∉ ' ' :: low val := by simpa using hlv
  have e : has "Title:".toList (kv pre val) = "Title".toList.isSuffixOf pre :=
    (has_colon (k := "Title".toList) (rest := []) (by decide) hp hv').trans (by simp)
  have e' : has "title:".toList (kv pre val) = "title".toList.isSuffixOf pre :=
    (has_colon (k := "title".toList) (rest := []) (by decide) hp hv').trans (by simp)
  have e0 : has "initial composition:".toList (kv (low pre) (low val)) = "initial composition".toList.isSuffixOf (low pre) :=
    (has_colon (k := "initial composition".toList) (rest := "".toList) (by decide) hlp ht).trans (by simp)
  have e1 : has "initial temperature:".toList (kv (low pre) (low val)) = "initial temperature".toList.isSuffixOf (low pre) :=
    (has_colon (k := "initial temperature".toList) (rest := "".toList) (by decide) hlp ht).trans (by simp)
  have e2 : has "initial pressure:".toList (kv (low pre) (low val)) = "initial pressure".toList.isSuffixOf (low pre) :=
    (has_colon (k := "initial pressure".toList) (rest := "".toList) (by decide) hlp ht).trans (by simp)
  have e3 : has "final temperature:".toList (kv (low pre) (low val)) = "final temperature".toList.isSuffixOf (low pre) :=
    (has_colon (k := "final temperature".toList) (rest := "".toList) (by decide) hlp ht).trans (by simp)
  have e4 : has "final pressure:".toList (kv (low pre) (low val)) = "final pressure".toList.isSuffixOf (low pre) :=
    (has_colon (k := "final pressure".toList) (rest := "".toList) (by decide) hlp ht).trans (by simp)
  have e5 : has "increment temperature:".toList (kv (low pre) (low val)) = "increment temperature".toList.isSuffixOf (low pre) :=
    (has_colon (k := "increment temperature".toList) (rest := "".toList) (by decide) hlp ht).trans (by simp)
  have e6 : has "increment pressure:".toList (kv (low pre) (low val)) = "increment pressure".toList.isSuffixOf (low pre) :=
    (has_colon (k := "increment pressure".toList) (rest := "".toList) (by decide) hlp ht).trans (by simp)
  have e7 : has "increment enthalpy:".toList (kv (low pre) (low val)) = "increment enthalpy".toList.isSuffixOf (low pre) :=
    (has_colon (k := "increment enthalpy".toList) (rest := "".toList) (by decide) hlp ht).trans (by simp)
  have e8 : has "increment entropy:".toList (kv (low pre) (low val)) = "increment entropy".toList.isSuffixOf (low pre) :=
    (has_colon (k := "increment entropy".toList) (rest := "".toList) (by decide) hlp ht).trans (by simp)
  have e9 : has "increment volume:".toList (kv (low pre) (low val)) = "increment volume".toList.isSuffixOf (low pre) :=
    (has_colon (k := "increment volume".toList) (rest := "".toList) (by decide) hlp ht).trans (by simp)
  have e10 : has "log fo2 path:".toList (kv (low pre) (low val)) = "log fo2 path".toList.isSuffixOf (low pre) :=
    (has_colon (k := "log fo2 path".toList) (rest := "".toList) (by decide) hlp ht).trans (by simp)
  have e11 : has "log fo2 offset:".toList (kv (low pre) (low val)) = "log fo2 offset".toList.isSuffixOf (low pre) :=
    (has_colon (k := "log fo2 offset".toList) (rest := "".toList) (by decide) hlp ht).trans (by simp)
  have e12 : has "suppress:".toList (kv (low pre) (low val)) = "suppress".toList.isSuffixOf (low pre) :=
    (has_colon (k := "suppress".toList) (rest := "".toList) (by decide) hlp ht).trans (by simp)
  have e13 : has "mode: fractionate solids".toList (kv (low pre) (low val)) = ("mode".toList.isSuffixOf (low pre) && " fractionate solids".toList.isPrefixOf (' ' :: low val)) :=
    (has_colon (k := "mode".toList) (rest := " fractionate solids".toList) (by decide) hlp ht).trans (by simp)
  have e14 : has "mode: fractionate liquids".toList (kv (low pre) (low val)) = ("mode".toList.isSuffixOf (low pre) && " fractionate liquids".toList.isPrefixOf (' ' :: low val)) :=
    (has_colon (k := "mode".toList) (rest := " fractionate liquids".toList) (by decide) hlp ht).trans (by simp)
  have e15 : has "mode: fractionate fluids".toList (kv (low pre) (low val)) = ("mode".toList.isSuffixOf (low pre) && " fractionate fluids".toList.isPrefixOf (' ' :: low val)) :=
    (has_colon (k := "mode".toList) (rest := " fractionate fluids".toList) (by decide) hlp ht).trans (by simp)
  have e16 : has "mode: multiple liquids".toList (kv (low pre) (low val)) = ("mode".toList.isSuffixOf (low pre) && " multiple liquids".toList.isPrefixOf (' ' :: low val)) :=
    (has_colon (k := "mode".toList) (rest := " multiple liquids".toList) (by decide) hlp ht).trans (by simp)
  have e17 : has "mode: isenthalpic".toList (kv (low pre) (low val)) = ("mode".toList.isSuffixOf (low pre) && " isenthalpic".toList.isPrefixOf (' ' :: low val)) :=
    (has_colon (k := "mode".toList) (rest := " isenthalpic".toList) (by decide) hlp ht).trans (by simp)
  have e18 : has "mode: isentropic".toList (kv (low pre) (low val)) = ("mode".toList.isSuffixOf (low pre) && " isentropic".toList.isPrefixOf (' ' :: low val)) :=
    (has_colon (k := "mode".toList) (rest := " isentropic".toList) (by decide) hlp ht).trans (by simp)
  have e19 : has "mode: isochoric".toList (kv (low pre) (low val)) = ("mode".toList.isSuffixOf (low pre) && " isochoric".toList.isPrefixOf (' ' :: low val)) :=
    (has_colon (k := "mode".toList) (rest := " isochoric".toList) (by decide) hlp ht).trans (by simp)
  unfold step stepK
  simp only [hl, e, e', e0, e1, e2, e3, e4, e5, e6, e7, e8, e9, e10, e11, e12, e13, e14, e15, e16, e17, e18, e19]

theorem numAt_kv (pre val : Text) : numAt (kv pre val) (pre.length + 2) = stod val := by
  have h : (kv pre val).drop (pre.length + 2) = val := by simp [kv, List.drop_append]
  have h2 : pre.length + 2 ≤ (kv pre val).length := by simp [kv]
  simp [numAt, sub, h2, h]

theorem sub_kv (pre val : Text) : sub (kv pre val) (pre.length + 2) = some val := by
  have h : (kv pre val).drop (pre.length + 2) = val := by simp [kv, List.drop_append]
  have h2 : pre.length + 2 ≤ (kv pre val).length := by simp [kv]
  simp [sub, h2, h]

/-! ### The lines of a saved file, one by one -/

theorem low_das (x : ℚ) (n : ℕ) : low (das x (n + 1)) = das x (n + 1) := low_numeric (das_numeric x n)

theorem no_colon (x : ℚ) (n : ℕ) : ':' ∉ das x (n + 1) := not_numeric (das_numeric x n) (by decide)

theorem low_no_colon (x : ℚ) (n : ℕ) : ':' ∉ low (das x (n + 1)) := by rw [low_das]; exact no_colon x n

theorem step_temperature (labels : List Text) (σ : St) (x : ℚ) : step labels σ (kv "Initial Temperature".toList (das x 2)) =
    some { σ with c := { σ.c with tK := (rnd 2 x) } } := by
  rw [step_kv labels σ (by decide) (no_colon x _) (by decide) (low_no_colon x _)]
  change (numAt (kv (low "Initial Temperature".toList) (low (das x 2))) 21).map _ = _
  rw [low_das, show 21 = (low "Initial Temperature".toList).length + 2 from rfl, numAt_kv, stod_das]
  rfl

theorem step_pressure (labels : List Text) (σ : St) (x : ℚ) : step labels σ (kv "Initial Pressure".toList (das x 2)) =
    some { σ with c := { σ.c with p := (rnd 2 x) } } := by
  rw [step_kv labels σ (by decide) (no_colon x _) (by decide) (low_no_colon x _)]
  change (numAt (kv (low "Initial Pressure".toList) (low (das x 2))) 18).map _ = _
  rw [low_das, show 18 = (low "Initial Pressure".toList).length + 2 from rfl, numAt_kv, stod_das]
  rfl

theorem step_inc_t (labels : List Text) (σ : St) (x : ℚ) : step labels σ (kv "Increment Temperature".toList (das x 2)) =
    some { σ with c := { σ.c with inc := { σ.c.inc with t := (rnd 2 x) } } } := by
  rw [step_kv labels σ (by decide) (no_colon x _) (by decide) (low_no_colon x _)]
  change (numAt (kv (low "Increment Temperature".toList) (low (das x 2))) 23).map _ = _
  rw [low_das, show 23 = (low "Increment Temperature".toList).length + 2 from rfl, numAt_kv, stod_das]
  rfl

theorem step_inc_p (labels : List Text) (σ : St) (x : ℚ) : step labels σ (kv "Increment Pressure".toList (das x 2)) =
    some { σ with c := { σ.c with inc := { σ.c.inc with p := (rnd 2 x) } } } := by
  rw [step_kv labels σ (by decide) (no_colon x _) (by decide) (low_no_colon x _)]
  change (numAt (kv (low "Increment Pressure".toList) (low (das x 2))) 20).map _ = _
  rw [low_das, show 20 = (low "Increment Pressure".toList).length + 2 from rfl, numAt_kv, stod_das]
  rfl

theorem step_inc_h (labels : List Text) (σ : St) (x : ℚ) : step labels σ (kv "Increment Enthalpy".toList (das x 2)) =
    some { σ with c := { σ.c with inc := { σ.c.inc with h := (rnd 2 x) } } } := by
  rw [step_kv labels σ (by decide) (no_colon x _) (by decide) (low_no_colon x _)]
  change (numAt (kv (low "Increment Enthalpy".toList) (low (das x 2))) 20).map _ = _
  rw [low_das, show 20 = (low "Increment Enthalpy".toList).length + 2 from rfl, numAt_kv, stod_das]
  rfl

theorem step_inc_s (labels : List Text) (σ : St) (x : ℚ) : step labels σ (kv "Increment Entropy".toList (das x 2)) =
    some { σ with c := { σ.c with inc := { σ.c.inc with s := (rnd 2 x) } } } := by
  rw [step_kv labels σ (by decide) (no_colon x _) (by decide) (low_no_colon x _)]
  change (numAt (kv (low "Increment Entropy".toList) (low (das x 2))) 19).map _ = _
  rw [low_das, show 19 = (low "Increment Entropy".toList).length + 2 from rfl, numAt_kv, stod_das]
  rfl

theorem step_inc_v (labels : List Text) (σ : St) (x : ℚ) : step labels σ (kv "Increment Volume".toList (das x 2)) =
    some { σ with c := { σ.c with inc := { σ.c.inc with v := (rnd 2 x) } } } := by
  rw [step_kv labels σ (by decide) (no_colon x _) (by decide) (low_no_colon x _)]
  change (numAt (kv (low "Increment Volume".toList) (low (das x 2))) 18).map _ = _
  rw [low_das, show 18 = (low "Increment Volume".toList).length + 2 from rfl, numAt_kv, stod_das]
  rfl

theorem step_offset (labels : List Text) (σ : St) (x : ℚ) : step labels σ (kv "log fo2 Offset".toList (das x 1)) =
    some { σ with c := { σ.c with offset := (rnd 1 x) } } := by
  rw [step_kv labels σ (by decide) (no_colon x _) (by decide) (low_no_colon x _)]
  change (numAt (kv (low "log fo2 Offset".toList) (low (das x 1))) 16).map _ = _
  rw [low_das, show 16 = (low "log fo2 Offset".toList).length + 2 from rfl, numAt_kv, stod_das]
  rfl

/-- The path that is read back. -/
def pathBack (p : ℤ) : ℤ := if 1 ≤ p ∧ p ≤ 5 then p else if 6 ≤ p ∧ p ≤ 19 then 3 else 0

theorem pathName_cases {P : ℤ → Text → Prop} (h : ∀ p, 0 ≤ p → p ≤ 19 → P p (pathName p))
    (h' : ∀ p, ¬ (0 ≤ p ∧ p ≤ 19) → P p "None".toList) (p : ℤ) : P p (pathName p) := by
  by_cases hp : 0 ≤ p ∧ p ≤ 19
  · exact h p hp.1 hp.2
  · have e : pathName p = "None".toList := by
      unfold pathName
      repeat rw [if_neg (by omega)]
    rw [e]; exact h' p hp

theorem step_path (labels : List Text) (σ : St) (p : ℤ) : ∃ d, step labels σ (kv "log fo2 Path".toList (pathName p)) =
    some { σ with c := { σ.c with path := pathBack p, offset := d } } := by
  have h1 : ':' ∉ pathName p ∧ ':' ∉ low (pathName p) ∧ (readPath (low (pathName p))).1 = pathBack p := by
    refine pathName_cases (P := fun p s => ':' ∉ s ∧ ':' ∉ low s ∧ (readPath (low s)).1 = pathBack p) ?_ ?_ p
    · intro p h0 h19
      interval_cases p <;> exact ⟨by decide, by decide, rfl⟩
    · intro p hp
      refine ⟨by decide, by decide, ?_⟩
      have : pathBack p = 0 := by unfold pathBack; rw [if_neg (by omega), if_neg (by omega)]
      rw [this]; rfl
  refine ⟨(readPath (low (pathName p))).2.getD σ.c.offset, ?_⟩
  rw [step_kv labels σ (by decide) h1.1 (by decide) h1.2.1]
  change (sub (kv (low "log fo2 Path".toList) (low (pathName p))) 14).map (fun s => ({ σ with c := { σ.c with
    path := (readPath s).1, offset := (readPath s).2.getD σ.c.offset } } : St)) = _
  rw [show 14 = (low "log fo2 Path".toList).length + 2 from rfl, sub_kv, ← h1.2.2]
  rfl

theorem step_title (labels : List Text) (σ : St) (title : Text) : step labels σ (kv "Title".toList title) =
    some { σ with c := { σ.c with title := title } } := by
  have h : has "Title:".toList (kv "Title".toList title) = true :=
    (has_iff _ _).mpr ⟨[], ' ' :: title, by simp [kv]⟩
  unfold step
  rw [h, Bool.true_or, if_pos rfl, show 7 = "Title".toList.length + 2 from rfl, sub_kv]
  rfl

theorem has_space {k a b : Text} (hk : ' ' ∉ k) : has k (a ++ ' ' :: b) = (has k a || has k b) := by
  rw [Bool.eq_iff_iff, Bool.or_eq_true, has_iff, has_iff, has_iff]
  constructor
  · rintro ⟨u, v, h⟩
    have h' : u ++ (k ++ v) = a ++ ' ' :: b := by simpa using h
    rcases List.append_eq_append_iff.mp h' with ⟨w, e1, e2⟩ | ⟨w, e1, e2⟩
    · left
      rcases List.append_eq_append_iff.mp e2 with ⟨z, f1, f2⟩ | ⟨z, f1, f2⟩
      · exact ⟨u, z, by rw [e1, f1]; simp⟩
      · cases z with
        | nil => exact ⟨u, [], by rw [e1, f1]; simp⟩
        | cons y z =>
          simp only [List.cons_append, List.cons.injEq] at f2
          exact absurd (by rw [f1, ← f2.1]; simp : ' ' ∈ k) hk
    · right
      cases w with
      | nil =>
        simp only [List.nil_append] at e2
        cases k with
        | nil => exact ⟨[], b, by simp⟩
        | cons y k =>
          simp only [List.cons_append, List.cons.injEq] at e2
          exact absurd (by rw [e2.1]; simp : ' ' ∈ y :: k) hk
      | cons y w =>
        simp only [List.cons_append, List.cons.injEq] at e2
        exact ⟨w, v, by rw [e2.2]; simp⟩
  · rintro (⟨u, v, rfl⟩ | ⟨u, v, rfl⟩)
    · exact ⟨u, v ++ ' ' :: b, by simp⟩
    · exact ⟨a ++ ' ' :: u, v, by simp⟩

theorem oxide_found : ∀ i j : Fin 19,
    has (low (oxide j)) (kv "initial composition".toList (low (oxide i))) = decide (j = i) := by decide

theorem oxide_letters : ∀ j : Fin 19, ' ' ∉ low (oxide j) ∧ ':' ∉ oxide j ∧ ':' ∉ low (oxide j) ∧
    ∃ c ∈ low (oxide j), numeric c = false := by decide

theorem oxide_not_number (j : Fin 19) (x : ℚ) (n : ℕ) : has (low (oxide j)) (das x (n + 1)) = false := by
  obtain ⟨c, hc, hn⟩ := (oxide_letters j).2.2.2
  rw [Bool.eq_false_iff, ne_eq, has_iff]
  intro h
  exact not_numeric (das_numeric x n) hn (h.subset hc)

theorem find_self : ∀ i : Fin 19, (List.finRange 19).find? (fun j => decide (j = i)) = some i := by decide

theorem step_oxide (labels : List Text) (σ : St) (i : Fin 19) (x : ℚ) :
    step labels σ (kv "Initial Composition".toList (oxide i ++ ' ' :: das x 4)) =
      some { σ with c := { σ.c with grams := Function.update σ.c.grams i (rnd 4 x) } } := by
  have hl : low (oxide i ++ ' ' :: das x 4) = low (oxide i) ++ ' ' :: das x 4 := by
    rw [low_append]
    change low (oxide i) ++ ' ' :: low (das x 4) = _
    rw [low_das]
  have o := oxide_letters i
  rw [step_kv labels σ (by decide) (by simp [o.2.1, no_colon]) (by decide) (by rw [hl]; simp [o.2.2.1, no_colon])]
  change (readOxide (kv (low "Initial Composition".toList) (low (oxide i ++ ' ' :: das x 4))) σ.c.grams).map _ = _
  rw [hl]
  have f : ∀ j : Fin 19, has (low (oxide j)) (kv (low "Initial Composition".toList) (low (oxide i) ++ ' ' :: das x 4)) =
      decide (j = i) := by
    intro j
    have : kv (low "Initial Composition".toList) (low (oxide i) ++ ' ' :: das x 4) =
        kv "initial composition".toList (low (oxide i)) ++ ' ' :: das x 4 := by
      rw [show low "Initial Composition".toList = "initial composition".toList from rfl]
      simp [kv]
    rw [this, has_space (oxide_letters j).1, oxide_found, oxide_not_number, Bool.or_false]
  have g : (List.finRange 19).find? (fun j => has (low (oxide j))
      (kv (low "Initial Composition".toList) (low (oxide i) ++ ' ' :: das x 4))) = some i := by
    simp only [f, find_self]
  unfold readOxide
  rw [g]
  have hlen : (low (oxide i)).length = (oxide i).length := by simp [low]
  have d : sub (kv (low "Initial Composition".toList) (low (oxide i) ++ ' ' :: das x 4))
      ("initial composition: ".toList.length + (oxide i).length) = some (' ' :: das x 4) := by
    have e : kv (low "Initial Composition".toList) (low (oxide i) ++ ' ' :: das x 4) =
        ("initial composition: ".toList ++ low (oxide i)) ++ ' ' :: das x 4 := by
      rw [show low "Initial Composition".toList = "initial composition".toList from rfl]
      simp [kv]
    rw [e, ← hlen, ← List.length_append, sub, if_pos (by simp), List.drop_left]
  simp only [d, Option.bind_eq_bind, Option.bind_some, stod_blank, stod_das, Option.map_some]

/-- What the program needs of the labels of the phases: small letters, no colons, no two alike. -/
structure Labels (labels : List Text) : Prop where
  small : ∀ l ∈ labels, low l = l
  colon : ∀ l ∈ labels, ':' ∉ l
  line : ∀ l ∈ labels, '\n' ∉ l
  nodup : labels.Nodup

theorem step_suppress {labels : List Text} (hL : Labels labels) (σ : St) {j : ℕ} (hj : j < labels.length) :
    step labels σ (kv "Suppress".toList (labels.getD j [])) =
      some { σ with c := { σ.c with supp := Function.update σ.c.supp j true } } := by
  have e : labels.getD j [] = labels[j] := by simp [hj]
  have hm : labels[j] ∈ labels := List.getElem_mem hj
  have hc := hL.colon _ hm
  have hl := hL.small _ hm
  rw [e, step_kv labels σ (by decide) hc (by decide) (by rw [hl]; exact hc)]
  change (sub (kv (low "Suppress".toList) (low labels[j])) 10).map (fun s => ({ σ with c := { σ.c with
    supp := readSupp labels s σ.c.supp } } : St)) = _
  rw [show 10 = (low "Suppress".toList).length + 2 from rfl, sub_kv, hl]
  have f : labels.findIdx? (· = labels[j]) = some j := by
    rw [List.findIdx?_eq_some_iff_getElem]
    refine ⟨hj, by simp, fun k hk h => ?_⟩
    simp only [decide_eq_true_eq] at h
    exact absurd ((hL.nodup.getElem_inj_iff).mp h) (by omega)
  simp only [Option.map_some, readSupp, f]

end Magma.Iface.SaveLoad
