import Verif.Iface.SaveLoad

/-!
C62: what a user saves is what a user loads.
-/

namespace Magma.Iface.SaveLoad

theorem getl_line {l : Text} (h : '\n' ∉ l) : ∀ acc rest, getl acc (l ++ '\n' :: rest) = (acc.reverse ++ l) :: getl [] rest := by
  induction l with
  | nil => intro acc rest; simp [getl]
  | cons c l ih =>
    intro acc rest
    simp only [List.mem_cons, not_or] at h
    rw [List.cons_append, getl, if_neg (Ne.symm h.1), ih h.2]
    simp

theorem lines_flatMap : ∀ {ls : List Text}, (∀ l ∈ ls, '\n' ∉ l) → lines (ls.flatMap fun l => l ++ ['\n']) = ls
  | [], _ => rfl
  | l :: ls, h => by
    have ih := lines_flatMap (ls := ls) fun m hm => h m (by simp [hm])
    unfold lines at ih ⊢
    rw [List.flatMap_cons, List.append_assoc, List.singleton_append, getl_line (h l (by simp)), ih]
    rfl

theorem no_line (x : ℚ) (n : ℕ) : '\n' ∉ das x (n + 1) := not_numeric (das_numeric x n) (by decide)

theorem kv_no_line {pre val : Text} (hp : '\n' ∉ pre) (hv : '\n' ∉ val) : '\n' ∉ kv pre val := by
  simp [kv, hp, hv]

theorem oxide_no_line : ∀ i : Fin 19, '\n' ∉ oxide i := by decide

theorem path_no_line (p : ℤ) : '\n' ∉ pathName p :=
  pathName_cases (P := fun _ s => '\n' ∉ s) (fun p h0 h19 => by interval_cases p <;> decide) (fun _ _ => by decide) p

theorem written_no_line {labels : List Text} (hL : Labels labels) {c : Cfg} (ht : '\n' ∉ c.title) :
    ∀ l ∈ written labels c, '\n' ∉ l := by
  intro l hl
  have hm : ∀ (b : Bool) (v : Text), '\n' ∉ v → l ∈ (if b then [kv "Mode".toList v] else []) → '\n' ∉ l := by
    intro b v hv h
    cases b
    · simp at h
    · simp at h; subst h; exact kv_no_line (by decide) hv
  simp only [written, List.mem_append] at hl
  rcases hl with (((((((((((h | h) | h) | h) | h) | h) | h) | h) | h) | h) | h) | h) | h
  · simp at h; subst h; exact kv_no_line (by decide) ht
  · simp only [List.mem_map] at h
    obtain ⟨i, -, rfl⟩ := h
    exact kv_no_line (by decide) (by simp [oxide_no_line, no_line])
  · simp only [List.mem_cons, List.not_mem_nil, or_false] at h
    rcases h with rfl | rfl <;> exact kv_no_line (by decide) (no_line _ _)
  · split_ifs at h <;> simp only [List.mem_cons, List.not_mem_nil, or_false] at h <;>
      rcases h with rfl | rfl <;> exact kv_no_line (by decide) (no_line _ _)
  · simp only [List.mem_cons, List.not_mem_nil, or_false] at h
    rcases h with rfl | rfl
    · exact kv_no_line (by decide) (path_no_line _)
    · exact kv_no_line (by decide) (no_line _ _)
  · simp only [List.mem_map, List.mem_filter, List.mem_range] at h
    obtain ⟨j, ⟨hj, -⟩, rfl⟩ := h
    exact kv_no_line (by decide) (by simpa [hj] using hL.line _ (List.getElem_mem hj))
  all_goals exact hm _ _ (by decide) h

/-- Reading the composition lines. -/
theorem fold_oxides (labels : List Text) (g : Fin 19 → ℚ) : ∀ (l : List (Fin 19)) (σ : St),
    (l.map fun i => kv "Initial Composition".toList (oxide i ++ ' ' :: das (g i) 4)).foldlM (step labels) σ =
      some { σ with c := { σ.c with grams := fun i => if i ∈ l then rnd 4 (g i) else σ.c.grams i } }
  | [], σ => by simp
  | i :: l, σ => by
    rw [List.map_cons, List.foldlM_cons, step_oxide, Option.bind_eq_bind, Option.bind_some, fold_oxides labels g l]
    have e : (fun j => if j ∈ l then rnd 4 (g j) else Function.update σ.c.grams i (rnd 4 (g i)) j) =
        fun j => if j ∈ i :: l then rnd 4 (g j) else σ.c.grams j := by
      funext j
      by_cases h : j = i
      · subst h; simp
      · simp [h]
    simp only [e]

/-- Reading the lines about suppressed phases. -/
theorem fold_suppress {labels : List Text} (hL : Labels labels) : ∀ (l : List ℕ) (σ : St), (∀ j ∈ l, j < labels.length) →
    (l.map fun j => kv "Suppress".toList (labels.getD j [])).foldlM (step labels) σ =
      some { σ with c := { σ.c with supp := fun j => decide (j ∈ l) || σ.c.supp j } }
  | [], σ, _ => by simp
  | i :: l, σ, h => by
    rw [List.map_cons, List.foldlM_cons, step_suppress hL σ (h i (by simp)), Option.bind_eq_bind, Option.bind_some,
      fold_suppress hL l _ fun j hj => h j (by simp [hj])]
    have e : (fun j => decide (j ∈ l) || Function.update σ.c.supp i true j) =
        fun j => decide (j ∈ i :: l) || σ.c.supp j := by
      funext j
      by_cases e : j = i
      · subst e; simp
      · simp [e]
    simp only [e]

theorem fold_sol (labels : List Text) (σ : St) (b : Bool) :
    (if b then [kv "Mode".toList "Fractionate Solids".toList] else []).foldlM (step labels) σ =
      some { σ with c := { σ.c with fracSol := b || σ.c.fracSol } } := by
  cases b
  · rfl
  · have h : step labels σ (kv "Mode".toList "Fractionate Solids".toList) = some { σ with c := { σ.c with fracSol := true } } := by
      rw [step_kv labels σ (by decide) (by decide) (by decide) (by decide)]
      rfl
    rw [if_pos rfl, List.foldlM_cons, h]
    rfl

theorem fold_liq (labels : List Text) (σ : St) (b : Bool) :
    (if b then [kv "Mode".toList "Fractionate Liquids".toList] else []).foldlM (step labels) σ =
      some { σ with c := { σ.c with fracLiq := b || σ.c.fracLiq } } := by
  cases b
  · rfl
  · have h : step labels σ (kv "Mode".toList "Fractionate Liquids".toList) = some { σ with c := { σ.c with fracLiq := true } } := by
      rw [step_kv labels σ (by decide) (by decide) (by decide) (by decide)]
      rfl
    rw [if_pos rfl, List.foldlM_cons, h]
    rfl

theorem fold_flu (labels : List Text) (σ : St) (b : Bool) :
    (if b then [kv "Mode".toList "Fractionate Fluids".toList] else []).foldlM (step labels) σ =
      some { σ with c := { σ.c with fracFlu := b || σ.c.fracFlu } } := by
  cases b
  · rfl
  · have h : step labels σ (kv "Mode".toList "Fractionate Fluids".toList) = some { σ with c := { σ.c with fracFlu := true } } := by
      rw [step_kv labels σ (by decide) (by decide) (by decide) (by decide)]
      rfl
    rw [if_pos rfl, List.foldlM_cons, h]
    rfl

theorem fold_multi (labels : List Text) (σ : St) (b : Bool) :
    (if b then [kv "Mode".toList "Multiple Liquids".toList] else []).foldlM (step labels) σ =
      some { σ with c := { σ.c with multi := b || σ.c.multi } } := by
  cases b
  · rfl
  · have h : step labels σ (kv "Mode".toList "Multiple Liquids".toList) = some { σ with c := { σ.c with multi := true } } := by
      rw [step_kv labels σ (by decide) (by decide) (by decide) (by decide)]
      rfl
    rw [if_pos rfl, List.foldlM_cons, h]
    rfl

theorem fold_h (labels : List Text) (σ : St) (b : Bool) :
    (if b then [kv "Mode".toList "Isenthalpic".toList] else []).foldlM (step labels) σ =
      some { σ with c := { σ.c with isenthalpic := b || σ.c.isenthalpic } } := by
  cases b
  · rfl
  · have h : step labels σ (kv "Mode".toList "Isenthalpic".toList) = some { σ with c := { σ.c with isenthalpic := true } } := by
      rw [step_kv labels σ (by decide) (by decide) (by decide) (by decide)]
      rfl
    rw [if_pos rfl, List.foldlM_cons, h]
    rfl

theorem fold_s (labels : List Text) (σ : St) (b : Bool) :
    (if b then [kv "Mode".toList "Isentropic".toList] else []).foldlM (step labels) σ =
      some { σ with c := { σ.c with isentropic := b || σ.c.isentropic } } := by
  cases b
  · rfl
  · have h : step labels σ (kv "Mode".toList "Isentropic".toList) = some { σ with c := { σ.c with isentropic := true } } := by
      rw [step_kv labels σ (by decide) (by decide) (by decide) (by decide)]
      rfl
    rw [if_pos rfl, List.foldlM_cons, h]
    rfl

theorem fold_v (labels : List Text) (σ : St) (b : Bool) :
    (if b then [kv "Mode".toList "Isochoric".toList] else []).foldlM (step labels) σ =
      some { σ with c := { σ.c with isochoric := b || σ.c.isochoric } } := by
  cases b
  · rfl
  · have h : step labels σ (kv "Mode".toList "Isochoric".toList) = some { σ with c := { σ.c with isochoric := true } } := by
      rw [step_kv labels σ (by decide) (by decide) (by decide) (by decide)]
      rfl
    rw [if_pos rfl, List.foldlM_cons, h]
    rfl

theorem rnd_zero (n : ℕ) : rnd n 0 = 0 := rnd_exact ⟨0, by simp⟩

/-- The settings after saving and loading them. -/
def back (n : ℕ) (inc : Inc) (c : Cfg) : Cfg where
  title := c.title
  grams := fun i => rnd 4 (c.grams i)
  tK := rnd 2 (max (c.tK - 5463 / 20) 0) + 5463 / 20
  p := rnd 2 c.p
  inc :=
    if c.isenthalpic then { inc with p := rnd 2 c.inc.p, h := rnd 2 c.inc.h }
    else if c.isentropic then { inc with p := rnd 2 c.inc.p, s := rnd 2 c.inc.s }
    else if c.isochoric then { inc with t := rnd 2 c.inc.t, v := rnd 2 c.inc.v }
    else { inc with t := rnd 2 c.inc.t, p := rnd 2 c.inc.p }
  path := pathBack c.path
  offset := rnd 1 c.offset
  supp := fun j => decide (j < n) && c.supp j
  fracSol := c.fracSol
  fracLiq := c.fracLiq
  fracFlu := c.fracFlu
  multi := c.multi
  isenthalpic := c.isenthalpic
  isentropic := c.isentropic
  isochoric := c.isochoric

theorem fold_inc (labels : List Text) (σ : St) (c : Cfg) :
    (if c.isenthalpic then
        [kv "Increment Pressure".toList (das c.inc.p 2), kv "Increment Enthalpy".toList (das c.inc.h 2)]
      else if c.isentropic then
        [kv "Increment Pressure".toList (das c.inc.p 2), kv "Increment Entropy".toList (das c.inc.s 2)]
      else if c.isochoric then
        [kv "Increment Temperature".toList (das c.inc.t 2), kv "Increment Volume".toList (das c.inc.v 2)]
      else
        [kv "Increment Temperature".toList (das c.inc.t 2), kv "Increment Pressure".toList (das c.inc.p 2)]).foldlM (step labels) σ =
      some { σ with c := { σ.c with inc :=
        if c.isenthalpic then { σ.c.inc with p := rnd 2 c.inc.p, h := rnd 2 c.inc.h }
        else if c.isentropic then { σ.c.inc with p := rnd 2 c.inc.p, s := rnd 2 c.inc.s }
        else if c.isochoric then { σ.c.inc with t := rnd 2 c.inc.t, v := rnd 2 c.inc.v }
        else { σ.c.inc with t := rnd 2 c.inc.t, p := rnd 2 c.inc.p } } } := by
  split_ifs <;> rw [List.foldlM_cons] <;>
    simp only [step_inc_t, step_inc_p, Option.bind_eq_bind, Option.bind_some, List.foldlM_cons, List.foldlM_nil,
      step_inc_h, step_inc_s, step_inc_v] <;> rfl

theorem direct_zero (a b : ℚ) : direct a b 0 = a := by simp [direct]

theorem load_save {labels : List Text} (hL : Labels labels) (title : Text) (inc : Inc) (d : ℚ) {c : Cfg} (ht : '\n' ∉ c.title) :
    load labels title inc d (save labels c) = some (back labels.length inc c) := by
  unfold load save
  rw [lines_flatMap (written_no_line hL ht)]
  simp only [written, List.foldlM_append]
  rw [List.foldlM_cons, step_title]
  simp only [Option.bind_eq_bind, Option.bind_some, List.foldlM_nil, Option.pure_def]
  rw [fold_oxides]
  simp only [Option.bind_some]
  rw [List.foldlM_cons, step_temperature]
  simp only [Option.bind_eq_bind, Option.bind_some]
  rw [List.foldlM_cons, step_pressure]
  simp only [Option.bind_eq_bind, Option.bind_some, List.foldlM_nil, Option.pure_def]
  rw [fold_inc]
  simp only [Option.bind_some]
  rw [List.foldlM_cons]
  generalize hσ : ({ c := _, finalT := _, finalP := _ } : St) = σ
  obtain ⟨d', hd⟩ := step_path labels σ c.path
  rw [hd]
  simp only [Option.bind_eq_bind, Option.bind_some]
  rw [List.foldlM_cons, step_offset]
  simp only [Option.bind_eq_bind, Option.bind_some, List.foldlM_nil, Option.pure_def]
  rw [fold_suppress hL _ _ fun j hj => by simp only [List.mem_filter, List.mem_range] at hj; exact hj.1]
  simp only [Option.bind_some, fold_sol, fold_liq, fold_flu, fold_multi, fold_h, fold_s, fold_v, Option.map_some]
  subst hσ
  simp only [finish, fresh, back, direct_zero, Bool.or_false, List.mem_filter, List.mem_range, List.mem_finRange, true_and,
    Bool.decide_and, Bool.decide_eq_true]
  congr 2
  funext i
  split_ifs with h
  · rfl
  · have : c.grams i = 0 := by simpa using h
    rw [this, rnd_zero]

/-- Labels of the phases of `meltsSolids[]`, sol_struct_data.h 2361-3717. -/
def meltsSolids : List Text := List.map String.toList
  ["olivine", "fayalite", "sphene", "garnet", "melilite", "orthopyroxene", "clinopyroxene", "aegirine",
    "aenigmatite", "cummingtonite", "amphibole", "hornblende", "biotite", "muscovite", "feldspar", "quartz",
    "tridymite", "cristobalite", "nepheline", "kalsilite", "leucite", "corundum", "sillimanite", "rutile",
    "perovskite", "spinel", "rhm-oxide", "ortho-oxide", "whitlockite", "apatite", "water", "alloy-solid", "alloy-liquid"]

/-- Labels of the phases of `meltsFluidSolids[]`, sol_struct_data.h 3720-5201. -/
def meltsFluidSolids : List Text := List.map String.toList
  ["olivine", "fayalite", "sphene", "garnet", "melilite", "orthopyroxene", "clinopyroxene", "aegirine",
    "aenigmatite", "cummingtonite", "amphibole", "hornblende", "biotite", "muscovite", "feldspar", "quartz",
    "tridymite", "cristobalite", "nepheline", "kalsilite", "leucite", "corundum", "sillimanite", "rutile",
    "perovskite", "spinel", "rhm-oxide", "ortho-oxide", "whitlockite", "apatite", "fluid", "alloy-solid", "alloy-liquid",
    "calcite", "aragonite", "magnesite", "siderite", "dolomite", "spurrite", "tilleyite", "diamond",
    "graphite"]

/-- Labels of the phases of `pMeltsSolids[]`, sol_struct_data.h 5204-6464. -/
def pMeltsSolids : List Text := List.map String.toList
  ["olivine", "sphene", "garnet", "melilite", "orthopyroxene", "clinopyroxene", "aegirine", "aenigmatite",
    "cummingtonite", "amphibole", "hornblende", "biotite", "muscovite", "feldspar", "quartz", "tridymite",
    "cristobalite", "nepheline", "kalsilite", "leucite", "corundum", "rutile", "perovskite", "spinel", 
    "rhm-oxide", "ortho-oxide", "whitlockite", "apatite", "water", "alloy-solid", "alloy-liquid"]

/-- **C62.** The tables of the program meet what loading needs of the labels of the phases. -/
theorem C62_labels : Labels meltsSolids ∧ Labels meltsFluidSolids ∧ Labels pMeltsSolids := by
  refine ⟨⟨?_, ?_, ?_, ?_⟩, ⟨?_, ?_, ?_, ?_⟩, ⟨?_, ?_, ?_, ?_⟩⟩ <;> decide

/-- A number with at most `n` decimals. -/
def Decimals (n : ℕ) (x : ℚ) : Prop := ∃ k : ℤ, x * 10 ^ n = k

/-- **C62.** Saving the inputs of a run without assimilant and loading the file gives back the title, every oxide within
half of the fourth decimal, temperature, pressure and the increments of the mode in use within half of the second
decimal, the offset within half of the first, and exactly the oxygen-buffer path, the suppressed phases and every
switch: for every title of one line, every composition, every temperature from 0 °C up, every named path, whatever
the settings were before loading. -/
theorem C62_saved_inputs {labels : List Text} (hL : Labels labels) (c : Cfg) (ht : '\n' ∉ c.title)
    (hT : 5463 / 20 ≤ c.tK) (hp : 0 ≤ c.path ∧ c.path ≤ 5) (title : Text) (inc : Inc) (d : ℚ) :
    ∃ c', load labels title inc d (save labels c) = some c' ∧
      c'.title = c.title ∧ (∀ i, |c'.grams i - c.grams i| ≤ 1 / 20000) ∧ |c'.tK - c.tK| ≤ 1 / 200 ∧ |c'.p - c.p| ≤ 1 / 200 ∧
      (c.isochoric = false ∨ c.isenthalpic = true ∨ c.isentropic = true → |c'.inc.p - c.inc.p| ≤ 1 / 200) ∧
      (c.isenthalpic = false → c.isentropic = false → |c'.inc.t - c.inc.t| ≤ 1 / 200) ∧
      (c.isenthalpic = true → |c'.inc.h - c.inc.h| ≤ 1 / 200) ∧
      (c.isenthalpic = false → c.isentropic = true → |c'.inc.s - c.inc.s| ≤ 1 / 200) ∧
      (c.isenthalpic = false → c.isentropic = false → c.isochoric = true → |c'.inc.v - c.inc.v| ≤ 1 / 200) ∧
      c'.path = c.path ∧ |c'.offset - c.offset| ≤ 1 / 20 ∧ (∀ j < labels.length, c'.supp j = c.supp j) ∧
      c'.fracSol = c.fracSol ∧ c'.fracLiq = c.fracLiq ∧ c'.fracFlu = c.fracFlu ∧ c'.multi = c.multi ∧
      c'.isenthalpic = c.isenthalpic ∧ c'.isentropic = c.isentropic ∧ c'.isochoric = c.isochoric := by
  have r2 : ∀ x, |rnd 2 x - x| ≤ 1 / 200 := fun x => (rnd_close 2 x).trans (by norm_num)
  refine ⟨_, load_save hL title inc d ht, rfl, fun i => ?_, ?_, r2 _, ?_, ?_, ?_, ?_, ?_, ?_, ?_, ?_, rfl, rfl, rfl, rfl,
    rfl, rfl, rfl⟩
  · exact (rnd_close 4 _).trans (by norm_num)
  · have : max (c.tK - 5463 / 20) 0 = c.tK - 5463 / 20 := max_eq_left (by linarith)
    have h := r2 (c.tK - 5463 / 20)
    simp only [back, this]
    rwa [show rnd 2 (c.tK - 5463 / 20) + 5463 / 20 - c.tK = rnd 2 (c.tK - 5463 / 20) - (c.tK - 5463 / 20) by ring]
  · intro h
    simp only [back]
    split_ifs with h1 h2 h3
    · exact r2 _
    · exact r2 _
    · simp [h1, h2, h3] at h
    · exact r2 _
  · intro h1 h2
    simp only [back, h1, h2]
    cases c.isochoric <;> exact r2 _
  · intro h1
    simp only [back, h1]
    exact r2 _
  · intro h1 h2
    simp only [back, h1, h2]
    exact r2 _
  · intro h1 h2 h3
    simp only [back, h1, h2, h3]
    exact r2 _
  · simp only [back, pathBack]
    split_ifs <;> omega
  · exact (rnd_close 1 _).trans (by norm_num)
  · intro j hj
    simp [back, hj]

/-- **C62.** Inputs with no more decimals than the file has come back exactly (the increments the mode does not use stay
as they were). -/
theorem C62_exact {labels : List Text} (hL : Labels labels) (c : Cfg) (ht : '\n' ∉ c.title) (hT : 5463 / 20 ≤ c.tK)
    (hp : 0 ≤ c.path ∧ c.path ≤ 5) (hs : ∀ j, labels.length ≤ j → c.supp j = false) (hg : ∀ i, Decimals 4 (c.grams i))
    (h1 : Decimals 2 (c.tK - 5463 / 20)) (h2 : Decimals 2 c.p) (h3 : Decimals 1 c.offset) (h4 : Decimals 2 c.inc.t)
    (h5 : Decimals 2 c.inc.p) (h6 : Decimals 2 c.inc.h) (h7 : Decimals 2 c.inc.s) (h8 : Decimals 2 c.inc.v)
    (title : Text) (d : ℚ) : load labels title c.inc d (save labels c) = some c := by
  rw [load_save hL title c.inc d ht]
  have m : max (c.tK - 5463 / 20) 0 = c.tK - 5463 / 20 := max_eq_left (by linarith)
  have e1 : (fun i => rnd 4 (c.grams i)) = c.grams := funext fun i => rnd_exact (hg i)
  have e2 : pathBack c.path = c.path := by unfold pathBack; split_ifs <;> omega
  have e3 : (fun j => decide (j < labels.length) && c.supp j) = c.supp := by
    funext j
    by_cases h : j < labels.length
    · simp [h]
    · simp [h, hs j (not_lt.mp h)]
  simp only [back, m, e1, e2, e3, rnd_exact h1, rnd_exact h2, rnd_exact h3, rnd_exact h4, rnd_exact h5, rnd_exact h6,
    rnd_exact h7, rnd_exact h8, ite_self, sub_add_cancel]

/-- **C62.** Saving what was loaded and loading it again changes nothing more. -/
theorem C62_again {labels : List Text} (hL : Labels labels) (c : Cfg) (ht : '\n' ∉ c.title) (title title' : Text) (inc : Inc)
    (d d' : ℚ) : ∃ c', load labels title inc d (save labels c) = some c' ∧ load labels title' inc d' (save labels c') = some c' := by
  refine ⟨_, load_save hL title inc d ht, ?_⟩
  rw [load_save hL title' inc d' (c := back labels.length inc c) ht]
  have idem : ∀ n x, rnd n (rnd n x) = rnd n x := fun n x => rnd_exact (rnd_decimals n x)
  have pos : 0 ≤ rnd 2 (max (c.tK - 5463 / 20) 0) := by
    unfold rnd
    rw [if_neg (not_lt.mpr (le_max_right _ _))]
    positivity
  have m : max (rnd 2 (max (c.tK - 5463 / 20) 0) + 5463 / 20 - 5463 / 20) 0 = rnd 2 (max (c.tK - 5463 / 20) 0) := by
    rw [add_sub_cancel_right, max_eq_left pos]
  have p : pathBack (pathBack c.path) = pathBack c.path := by
    unfold pathBack
    split_ifs <;> omega
  obtain ⟨_, _, _, _, _, _, _, su, _, _, _, _, a, b, v⟩ := c
  have q : (fun j => decide (j < labels.length) && (decide (j < labels.length) && su j)) =
      fun j => decide (j < labels.length) && su j := by
    funext j
    by_cases h : j < labels.length <;> simp [h]
  simp only at m p
  cases a <;> cases b <;> cases v <;> simp only [back, m, p, idem, q, Bool.false_eq_true, if_false, if_true]

/-- **C62.** A path with a preset offset (the codes 6 to 19: `+3FMQ`, ..., `+1.5FMQ`) does not come back: it is read as
the FMQ buffer with the separate offset of the file, so the preset is lost. -/
theorem C62_preset_lost {labels : List Text} (hL : Labels labels) (c : Cfg) (ht : '\n' ∉ c.title)
    (hp : 6 ≤ c.path ∧ c.path ≤ 19) (title : Text) (inc : Inc) (d : ℚ) :
    ∃ c', load labels title inc d (save labels c) = some c' ∧ c'.path = 3 ∧ c'.offset = rnd 1 c.offset := by
  refine ⟨_, load_save hL title inc d ht, ?_, rfl⟩
  simp only [back, pathBack]
  split_ifs <;> omega

/-- **C62.** A temperature below 0 °C comes back as 0 °C. -/
theorem C62_cold {labels : List Text} (hL : Labels labels) (c : Cfg) (ht : '\n' ∉ c.title) (hT : c.tK ≤ 5463 / 20)
    (title : Text) (inc : Inc) (d : ℚ) :
    ∃ c', load labels title inc d (save labels c) = some c' ∧ c'.tK = 5463 / 20 := by
  refine ⟨_, load_save hL title inc d ht, ?_⟩
  have : max (c.tK - 5463 / 20) 0 = 0 := max_eq_right (by linarith)
  simp only [back, this, rnd_zero, zero_add]

/-- A basalt with two phases suppressed. -/
def exC : Cfg where
  title := "MORB: run 1".toList
  grams := fun i => if i = 0 then 4868 / 100 else if i = 5 then 821 / 100 else if i = 17 then 3 / 100 else 0
  tK := 1200 + 5463 / 20
  p := 500
  inc := ⟨-2, -25 / 2, 0, 0, 0⟩
  path := 3
  offset := -1 / 2
  supp := fun j => j = 3 || j = 30
  fracSol := true
  fracLiq := false
  fracFlu := true
  multi := false
  isenthalpic := false
  isentropic := false
  isochoric := false

theorem exC_decimals : (∀ i, Decimals 4 (exC.grams i)) ∧ Decimals 2 (exC.tK - 5463 / 20) ∧ Decimals 2 exC.p ∧
    Decimals 1 exC.offset ∧ Decimals 2 exC.inc.t ∧ Decimals 2 exC.inc.p ∧ Decimals 2 exC.inc.h ∧ Decimals 2 exC.inc.s ∧
    Decimals 2 exC.inc.v := by
  unfold Decimals
  refine ⟨fun i => ?_, ⟨120000, ?_⟩, ⟨50000, ?_⟩, ⟨-5, ?_⟩, ⟨-200, ?_⟩, ⟨-1250, ?_⟩, ⟨0, ?_⟩, ⟨0, ?_⟩, ⟨0, ?_⟩⟩
  · change ∃ k : ℤ, (if i = 0 then 4868 / 100 else if i = 5 then 821 / 100 else if i = 17 then 3 / 100 else 0 : ℚ) * 10 ^ 4 = k
    split_ifs
    · exact ⟨486800, by norm_num⟩
    · exact ⟨82100, by norm_num⟩
    · exact ⟨300, by norm_num⟩
    · exact ⟨0, by norm_num⟩
  · rw [show exC.tK = 1200 + 5463 / 20 from rfl]; norm_num
  · rw [show exC.p = 500 from rfl]; norm_num
  · rw [show exC.offset = -1 / 2 from rfl]; norm_num
  · rw [show exC.inc.t = -2 from rfl]; norm_num
  · rw [show exC.inc.p = -25 / 2 from rfl]; norm_num
  · rw [show exC.inc.h = 0 from rfl]; norm_num
  · rw [show exC.inc.s = 0 from rfl]; norm_num
  · rw [show exC.inc.v = 0 from rfl]; norm_num

/-- The hypotheses are met. -/
example (title : Text) (d : ℚ) : load meltsSolids title exC.inc d (save meltsSolids exC) = some exC := by
  have hn : '\n' ∉ exC.title := by decide
  have hl : meltsSolids.length = 33 := by decide
  have hs : ∀ j, meltsSolids.length ≤ j → exC.supp j = false := by
    intro j hj
    rw [hl] at hj
    change (decide (j = 3) || decide (j = 30)) = false
    simp only [Bool.or_eq_false_iff, decide_eq_false_iff_not]
    omega
  have hT : 5463 / 20 ≤ exC.tK := by rw [show exC.tK = 1200 + 5463 / 20 from rfl]; norm_num
  have hp : 0 ≤ exC.path ∧ exC.path ≤ 5 := by rw [show exC.path = 3 from rfl]; decide
  obtain ⟨h0, h1, h2, h3, h4, h5, h6, h7, h8⟩ := exC_decimals
  exact C62_exact C62_labels.1 exC hn hT hp hs h0 h1 h2 h3 h4 h5 h6 h7 h8 title d

end Magma.Iface.SaveLoad
