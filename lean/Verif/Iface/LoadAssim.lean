import Verif.Iface.SaveLoadProps

/-!
Loading the assimilants of a file, /repo/src/melts_interface.cpp 1271-1318 (`LoadFromFile`), with `GetWords` (1055-1068).
-/

namespace Magma.Iface.SaveLoad

/-- `GetWords`, melts_interface.cpp 1055-1068: the characters after the last blank are not a word. -/
def getWords : Text → Text → List Text
  | _, [] => []
  | w, c :: s => if c = ' ' then w :: getWords [] s else getWords (w ++ [c]) s

/-- The keys tested before the ones about assimilants, melts_interface.cpp 1102-1269. -/
def earlier : List Text := List.map String.toList
  ["initial composition:", "initial temperature:", "initial pressure:", "final temperature:", "final
    pressure:", "increment temperature:", "increment pressure:", "increment enthalpy:", "increment entropy:",
    "increment volume:", "log fo2 path:", "log fo2 offset:", "suppress:", "mode: fractionate solids", "mode:
    fractionate liquids", "mode: fractionate fluids", "mode: multiple liquids", "mode: isenthalpic", "mode:
    isentropic", "mode: isochoric"]

/-- Does a line get as far as the test for assimilants? melts_interface.cpp 1096-1275. -/
def reaches (raw : Text) : Bool :=
  !(has "Title:".toList raw || has "title:".toList raw) && !(earlier.any fun k => has k (low raw)) &&
    has "assimilant: ".toList (low raw)

/-- The variables about assimilants: `assimilation_values`, `dspAssimMass`, `dspAssimLiqM`, `assimT`,
`assimilant_idx_found`, `assimilant_liquid_found`. -/
structure ASt where
  values : ℕ → ℚ
  mass : ℚ
  liqM : ℚ
  t : ℚ
  found : List ℕ
  liquid : Bool

/-- melts_interface.cpp 1073-1076 and 192-199. -/
def freshA : ASt := ⟨fun _ => 0, 0, 0, 1000, [], false⟩

/-- One line about assimilants, melts_interface.cpp 1274-1318. `rows` is the table of solids: is the row a phase, its
label. -/
def stepA (rows : List (Bool × Text)) (α : ASt) (raw : Text) : Option ASt :=
  let line := low raw
  if !reaches raw then some α
  else if has "assimilant: temperature".toList line then (numAt line 24).map fun x => { α with t := x }
  else if has "assimilant: mass".toList line then (numAt line 17).map fun x => { α with mass := x }
  else if has "assimilant: liquid mass".toList line then
    (numAt line 24).map fun x => { α with liqM := x, values := Function.update α.values (rows.length + 19) x }
  else if has "units".toList line then some α
  else if has "increments".toList line then some α
  else
    match (rows.findIdx? fun r => (getWords [] line)[1]? = some r.2) with
    | some i =>
      (numAt line ((rows.getD i (false, [])).2.length + 13)).map fun x =>
        if (rows.getD i (false, [])).1 then
          { α with found := α.found ++ [i], values := Function.update α.values i (x * α.mass / 100) }
        else { α with values := Function.update α.values i x }
    | none =>
      match (List.finRange 19).find? fun o => has (oxide o) line with
      | some o =>
        (numAt line ((oxide o).length + 13)).map fun x =>
          { α with values := Function.update α.values (rows.length + o) x, liquid := true }
      | none => some α

/-- The assimilants of a file. -/
def loadA (rows : List (Bool × Text)) (file : Text) : Option ASt := (lines file).foldlM (stepA rows) freshA

/-! ### What a file cannot do -/

theorem foldlM_invariant {α β : Type*} {P : β → Prop} {f : β → α → Option β} (h : ∀ b a b', P b → f b a = some b' → P b') :
    ∀ (l : List α) (b b' : β), P b → l.foldlM f b = some b' → P b'
  | [], b, b', hb, e => by
    simp at e; exact e ▸ hb
  | a :: l, b, b', hb, e => by
    rw [List.foldlM_cons] at e
    cases hc : f b a with
    | none => simp [hc] at e
    | some c =>
      simp only [hc, Option.bind_eq_bind, Option.bind_some] at e
      exact foldlM_invariant h l c b' (h b a c hb hc) e

theorem upper_not_low {c : Char} (h : c.isUpper = true) (s : Text) : c ∉ low s := by
  intro hc
  simp only [low, List.mem_map] at hc
  obtain ⟨d, -, e⟩ := hc
  rw [← e] at h
  unfold Char.toLower at h
  split_ifs at h with hd
  · simp only [Char.isUpper, Bool.and_eq_true, decide_eq_true_eq] at h
    have h2 := UInt32.le_iff_toNat_le.mp h.2
    have a1 := UInt32.le_iff_toNat_le.mp hd.1
    have a2 := UInt32.le_iff_toNat_le.mp hd.2
    simp only [UInt32.toNat_add] at h2
    have v1 : 'A'.val.toNat = 65 := rfl
    have v2 : 'Z'.val.toNat = 90 := rfl
    have v3 : 'a'.val.toNat = 97 := rfl
    have v4 : ('a'.val - 'A'.val).toNat = 32 := rfl
    omega
  · simp only [Char.isUpper, Bool.and_eq_true, decide_eq_true_eq] at h
    exact hd h

theorem oxide_upper : ∀ o : Fin 19, ∃ c ∈ oxide o, c.isUpper = true := by decide

theorem oxide_never (s : Text) (o : Fin 19) : has (oxide o) (low s) = false := by
  obtain ⟨c, hc, hu⟩ := oxide_upper o
  rw [Bool.eq_false_iff, ne_eq, has_iff]
  exact fun h => upper_not_low hu s (h.subset hc)

theorem stepA_none (rows : List (Bool × Text)) (line : Text) :
    ((List.finRange 19).find? fun o => has (oxide o) (low line)) = none := by
  simp [oxide_never]

/-- **C62.** No file whatever makes the program add a liquid assimilant: the labels of the oxides have capital letters
and are looked for in a line turned into small letters. -/
theorem C62_no_liquid_assimilant (rows : List (Bool × Text)) (file : Text) (α : ASt) (h : loadA rows file = some α) :
    α.liquid = false ∧ ∀ o : Fin 19, α.values (rows.length + o) = 0 := by
  refine foldlM_invariant (P := fun α => α.liquid = false ∧ ∀ o : Fin 19, α.values (rows.length + o) = 0)
    (fun β a β' hb hs => ?_) _ _ _ ⟨rfl, fun _ => rfl⟩ h
  have upd : ∀ {i : ℕ} {x : ℚ}, (∀ o : Fin 19, rows.length + o ≠ i) →
      ∀ o : Fin 19, Function.update β.values i x (rows.length + o) = 0 :=
    fun {i x} hi o => by rw [Function.update_of_ne (hi o)]; exact hb.2 o
  have omap : ∀ {o : Option ℚ} {g : ℚ → ASt}, o.map g = some β' → ∃ x, g x = β' := fun {o g} e => by
    cases o with
    | none => simp at e
    | some x => exact ⟨x, by simpa using e⟩
  unfold stepA at hs
  simp only [stepA_none rows] at hs
  split_ifs at hs
  · cases hs; exact hb
  · obtain ⟨x, rfl⟩ := omap hs; exact hb
  · obtain ⟨x, rfl⟩ := omap hs; exact hb
  · obtain ⟨x, rfl⟩ := omap hs
    exact ⟨hb.1, upd fun o => by omega⟩
  · cases hs; exact hb
  · cases hs; exact hb
  · split at hs
    · rename_i i hi
      obtain ⟨x, rfl⟩ := omap hs
      have hlt : i < rows.length := (List.findIdx?_eq_some_iff_getElem.mp hi).1
      split_ifs
      · exact ⟨hb.1, upd fun o => by omega⟩
      · exact ⟨hb.1, upd fun o => by omega⟩
    · cases hs; exact hb

/-- **C62.** No file whatever loads an assimilant into a row of the table if an earlier row has the same label: the
amounts go to the first one. -/
theorem C62_first_label_only (rows : List (Bool × Text)) {i k : ℕ} (hik : i < k) (hk : k < rows.length)
    (e : (rows[i]'(hik.trans hk)).2 = rows[k].2) (file : Text) (α : ASt) (h : loadA rows file = some α) : α.values k = 0 := by
  refine foldlM_invariant (P := fun α => α.values k = 0) (fun β a β' hb hs => ?_) _ _ _ rfl h
  have omap : ∀ {o : Option ℚ} {g : ℚ → ASt}, o.map g = some β' → ∃ x, g x = β' := fun {o g} e => by
    cases o with
    | none => simp at e
    | some x => exact ⟨x, by simpa using e⟩
  unfold stepA at hs
  simp only [stepA_none rows] at hs
  split_ifs at hs
  · cases hs; exact hb
  · obtain ⟨x, rfl⟩ := omap hs; exact hb
  · obtain ⟨x, rfl⟩ := omap hs; exact hb
  · obtain ⟨x, rfl⟩ := omap hs
    change Function.update β.values (rows.length + 19) x k = 0
    rw [Function.update_of_ne (by omega)]; exact hb
  · cases hs; exact hb
  · cases hs; exact hb
  · split at hs
    · rename_i j hj
      obtain ⟨x, rfl⟩ := omap hs
      obtain ⟨h1, h2, h3⟩ := List.findIdx?_eq_some_iff_getElem.mp hj
      have hne : k ≠ j := by
        rintro rfl
        simp only [decide_eq_true_eq] at h2 h3
        exact h3 i hik (by rw [h2, e])
      split_ifs
      · change Function.update β.values j _ k = 0
        rw [Function.update_of_ne hne]; exact hb
      · change Function.update β.values j _ k = 0
        rw [Function.update_of_ne hne]; exact hb
    · cases hs; exact hb

/-- `meltsSolids[]`, sol_struct_data.h 2361-3718: is the row a PHASE, its label. -/
def meltsRows : List (Bool × Text) := List.map (fun p => (p.1, String.toList p.2))
  [(true, "olivine"), (false, "tephroite"), (false, "fayalite"), (false, "co-olivine"), (false, "ni-olivine"),
    (false, "monticellite"), (false, "forsterite"), (true, "fayalite"), (true, "sphene"), (true, "garnet"),
    (false, "almandine"), (false, "grossular"), (false, "pyrope"), (true, "melilite"), (false, "akermanite"),
    (false, "gehlenite"), (false, "iron-akermanite"), (false, "soda-melilite"), (true, "orthopyroxene"),
    (false, "diopside"), (false, "clinoenstatite"), (false, "hedenbergite"), (false, "alumino-buffonite"),
    (false, "buffonite"), (false, "essenite"), (false, "jadeite"), (true, "clinopyroxene"), (false, "diopside"),
    (false, "clinoenstatite"), (false, "hedenbergite"), (false, "alumino-buffonite"), (false, "buffonite"),
    (false, "essenite"), (false, "jadeite"), (true, "aegirine"), (true, "aenigmatite"), (true, "cummingtonite"),
    (false, "cummingtonite"), (false, "grunerite"), (true, "amphibole"), (false, "cummingtonite"),
    (false, "grunerite"), (false, "tremolite"), (true, "hornblende"), (false, "pargasite"),
    (false, "ferropargasite"), (false, "magnesiohastingsite"), (true, "biotite"), (false, "annite"),
    (false, "phlogopite"), (true, "muscovite"), (true, "feldspar"), (false, "albite"), (false, "anorthite"),
    (false, "sanidine"), (true, "quartz"), (true, "tridymite"), (true, "cristobalite"), (true, "nepheline"),
    (false, "na-nepheline"), (false, "k-nepheline"), (false, "vc-nepheline"), (false, "ca-nepheline"),
    (true, "kalsilite"), (false, "na-nepheline"), (false, "k-nepheline"), (false, "vc-nepheline"),
    (false, "ca-nepheline"), (true, "leucite"), (false, "leucite"), (false, "analcime"), (false, "na-leucite"),
    (true, "corundum"), (true, "sillimanite"), (true, "rutile"), (true, "perovskite"), (true, "spinel"),
    (false, "chromite"), (false, "hercynite"), (false, "magnetite"), (false, "spinel"), (false, "ulvospinel"),
    (true, "rhm-oxide"), (false, "geikielite"), (false, "hematite"), (false, "ilmenite"), (false, "pyrophanite"),
    (false, "corundum"), (true, "ortho-oxide"), (false, "pseudobrookite"), (false, "ferropseudobrookite"),
    (false, "karrooite"), (true, "whitlockite"), (true, "apatite"), (true, "water"), (true, "alloy-solid"),
    (false, "Fe-metal"), (false, "Ni-metal"), (true, "alloy-liquid"), (false, "Fe-liquid"), (false, "Ni-liquid")]

/-- **C62.** In the table of MELTS the assimilant fayalite, a phase of its own, can not be loaded: olivine has a component
of that name in an earlier row. -/
theorem C62_fayalite (file : Text) (α : ASt) (h : loadA meltsRows file = some α) : α.values 7 = 0 :=
  C62_first_label_only meltsRows (i := 2) (k := 7) (by decide) (by decide) (by decide) file α h

/-- Row 7 is the phase fayalite. -/
example : meltsRows[7]? = some (true, "fayalite".toList) := by decide

/-- A file with 30 g of quartz as the assimilant is read as such. -/
example : (loadA meltsRows "Assimilant: Mass 40\nAssimilant: quartz 75.00\n".toList).map (fun α => (α.values 55, α.found)) =
    some (30, [55]) := by
  decide +kernel

end Magma.Iface.SaveLoad
