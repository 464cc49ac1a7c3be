import Verif.Thermo.ElementRows

/-!
From the moles of elements of an analysis to the moles of end-members of a solid solution: the FIRST -> SECOND branch
of the functions `con*` (/repo/sources/*.c) and its use by `getMeltsPhaseProperties` and `getMeltsSaturationState`
(/repo/sources/library.c 1541-1592, 2030-2078). Property C52.

`double` is ℚ; elements are numbered by atomic number (`elements[]`). The build is the one with RHYOLITE_ADJUSTMENTS.
-/

namespace Magma.Thermo.Elements

open Magma.Support.Formula Magma.Support.Tables
open Magma.Engine (Tables SRow)

/-! ### The code -/

/-- olivine.c 2559-2575. -/
def conOlv (e : ℕ → ℚ) : List ℚ :=
  [e 25 / 2, e 26 / 2, e 27 / 2, e 28 / 2, e 20, (e 12 - e 20) / 2]

/-- garnet.c 386-394. -/
def conGrn (e : ℕ → ℚ) : List ℚ := [e 26 / 3, e 20 / 3, e 12 / 3]

/-- melilite.c 1898-1908. -/
def conMel (e : ℕ → ℚ) : List ℚ := [e 12, e 13 / 2, e 26 + e 25, e 11 / 2]

/-- cummingtonite.c 1192-1199. -/
def conCum (e : ℕ → ℚ) : List ℚ := [e 12 / 7, e 26 / 7]

/-- biotite.c 242-248. -/
def conBio (e : ℕ → ℚ) : List ℚ := [e 26 / 3, e 12 / 3]

/-- feldspar.c 373-381. -/
def conFld (e : ℕ → ℚ) : List ℚ := [e 11, e 20, e 19]

/-- nepheline.c 1433-1450: iron counted as trivalent, magnesium with calcium. -/
def conNph (e : ℕ → ℚ) : List ℚ :=
  let divalent := e 20 + e 12
  let vacancy := (e 13 + e 26 + e 14) / 2 - e 11 - e 19 - divalent
  [(e 11 - 3 * vacancy + divalent) / 4, e 19 / 4, vacancy - divalent, divalent]

/-- kalsilite.c 451-465. -/
def conKal (e : ℕ → ℚ) : List ℚ :=
  let divalent := e 20
  let vacancy := (e 13 + e 14) / 2 - e 11 - e 19 - divalent
  [(e 11 - 3 * vacancy + divalent) / 4, e 19 / 4, vacancy - divalent, divalent]

/-- leucite.c 276-284. -/
def conLeu (e : ℕ → ℚ) : List ℚ := [e 19, e 1 / 2, e 11 - e 1 / 2]

/-- fluidPhase.c 2307-2312. -/
def conFlu (e : ℕ → ℚ) : List ℚ := [e 1 / 2, e 6]

/-- alloy-solid.c 233-239 and alloy-liquid.c 224-230. -/
def conAlloy (e : ℕ → ℚ) : List ℚ := [e 26, e 28]

/-- ortho-oxide.c 1961-1985. -/
def conOox (e : ℕ → ℚ) : List ℚ :=
  let sumcat := e 12 + e 13 + e 22 + e 24 + e 25 + e 26 + e 27 + e 28
  let sumchg := 2 * e 12 + 3 * e 13 + 4 * e 22 + 3 * e 24 + 2 * e 25 + 2 * e 27 + 2 * e 28
  let fe3 := 10 * sumcat / 3 - sumchg - 2 * e 26
  let fe3 := if fe3 < 0 then 0 else fe3
  let fe2 := e 26 - fe3
  [fe3 / 2, fe2, e 12]

/-- rhombohedral.c 2264-2292, the pMELTS table. -/
def conRhm (e : ℕ → ℚ) : List ℚ :=
  let sumcat := e 12 + e 13 + e 22 + e 24 + e 25 + e 26 + e 27 + e 28
  let sumchg := 2 * e 12 + 3 * e 13 + 4 * e 22 + 3 * e 24 + 2 * e 25 + 2 * e 27 + 2 * e 28
  let fe3 := 6 * sumcat / 2 - sumchg - 2 * e 26
  let fe2 := e 26 - fe3
  let m1 := (fe3 + e 13 + e 24) / 2
  [e 12, if m1 < 0 then 0 else m1, fe2, e 25 + e 27 + e 28]

/-- rhomsghiorso.c 2835-2864, the MELTS tables. -/
def conMsg (e : ℕ → ℚ) : List ℚ :=
  let sumcat := e 12 + e 13 + e 22 + e 24 + e 25 + e 26 + e 27 + e 28
  let sumchg := 2 * e 12 + 3 * e 13 + 4 * e 22 + 3 * e 24 + 2 * e 25 + 2 * e 27 + 2 * e 28
  let fe3 := 6 * sumcat / 2 - sumchg - 2 * e 26
  let fe2 := e 26 - fe3
  [e 12, if fe3 / 2 < 0 then 0 else fe3 / 2, if fe2 < 0 then 0 else fe2, e 25 + e 27 + e 28, (e 13 + e 24) / 2]

/-- spinel.c 2764-2808 (`eps` is DBL_EPSILON, `root` its square root). -/
def conSpn (eps root : ℚ) (e : ℕ → ℚ) : List ℚ :=
  let sumcat := e 12 + e 13 + e 22 + e 24 + e 25 + e 26 + e 27 + e 28
  let sumchg := 2 * e 12 + 3 * e 13 + 4 * e 22 + 3 * e 24 + 2 * e 25 + 2 * e 27 + 2 * e 28
  let fe3' := 8 * sumcat / 3 - sumchg - 2 * e 26
  let fe3 := if fe3' < 0 then eps else fe3'
  let fe2 := if fe3' < 0 then e 26 else e 26 - fe3'
  let fTet := if fe3' < 0 then (if fe2 + e 12 > 0 then (1 / 3 * sumcat + e 22) / (fe2 + e 12) else 1) else 1
  let fOct := if fe3' < 0 then
    (if 2 * e 22 + e 13 + e 24 > 0 then 2 / 3 * sumcat / (2 * e 22 + e 13 + e 24) else 1) else 1
  let proj := if fe2 + e 12 + e 25 = 0 then 1 else (fe2 + e 25 + e 12 + e 27 + e 28) / (fe2 + e 12 + e 25)
  let m1 := (fe2 * fTet + e 25 * fTet - e 24 * fOct / 2 - fe3 / 2 - 2 * e 22 * fOct) * proj
  [e 24 * fOct / 2, if m1 < 0 ∧ |m1| < root then 0 else m1, fe3 / 2, e 12 * proj * fTet, e 22 * fOct]

/-- The last lines of conCpx, conOpx and of the library's own version: end-members from the elements and the two
valences of iron (clinopyroxene.c 4339-4345, orthopyroxene.c 4198-4204, library.c 1580-1586, 2067-2073). -/
def pyroxene (e : ℕ → ℚ) (fe2 fe3 : ℚ) : List ℚ :=
  [-fe3 / 2 - fe2 - e 25 - e 13 / 2 - e 24 / 2 + e 20 + e 11 / 2 - e 22,
   fe3 / 4 + fe2 / 2 + e 25 / 2 + e 13 / 4 + e 24 / 4 - e 20 / 2 + e 12 / 2 - e 11 / 4,
   fe2 + e 25,
   -fe3 / 2 + e 13 / 2 + e 24 / 2 - e 11 / 2 + e 22,
   fe3 / 2 - e 13 / 2 - e 24 / 2 + e 11 / 2 + e 22,
   fe3 / 2 + e 13 / 2 + e 24 / 2 - e 11 / 2 - e 22,
   e 11]

/-- Sum of the cations and of the charges other than iron's, clinopyroxene.c 4317-4318. -/
def cations (e : ℕ → ℚ) : ℚ := e 11 + e 12 + e 13 + e 14 + e 20 + e 22 + e 24 + e 25 + e 26

/-- See `cations`. -/
def charges (e : ℕ → ℚ) : ℚ :=
  e 11 + 2 * e 12 + 3 * e 13 + 4 * e 14 + 2 * e 20 + 4 * e 22 + 3 * e 24 + 2 * e 25

/-- clinopyroxene.c 4302-4345; `p` in bar. -/
def conCpx (p : ℚ) (e : ℕ → ℚ) : List ℚ :=
  let corrSi := if e 11 + e 20 > 25 / 100 * cations e then 4 * (e 11 + e 20) - cations e else 0
  let sumcat := cations e + corrSi
  if p < 1000 ∨ e 11 > e 13 then
    let fe3 := 3 * sumcat - charges e - 2 * e 26
    let fe2 := e 26 - fe3
    let q := if fe3 < 1 / 100 * e 26 then (99 / 100 * e 26, 1 / 100 * e 26) else (fe2, fe3)
    let q := if q.1 < 1 / 100 * e 26 then (1 / 100 * e 26, 99 / 100 * e 26) else q
    pyroxene e q.1 q.2
  else pyroxene e (e 26) 0

/-- orthopyroxene.c 4158-4204: all iron is ferrous. -/
def conOpx (e : ℕ → ℚ) : List ℚ := pyroxene e (e 26) 0

/-- library.c 1549-1586, 2044-2073: the version the library uses for both pyroxenes instead of conCpx and conOpx. -/
def libPyroxene (e : ℕ → ℚ) : List ℚ :=
  let fe3 := 3 * cations e - charges e - 2 * e 26
  let fe2 := e 26 - fe3
  let q := if fe3 < 0 then (e 26, 0) else (fe2, fe3)
  let q := if q.1 < 0 then (0, e 26) else q
  pyroxene e q.1 q.2

/-- amphibole.c 1545-1579. -/
def conAph (e : ℕ → ℚ) : List ℚ :=
  let sumchg := e 11 + 2 * e 12 + 3 * e 13 + 4 * e 14 + 2 * e 20 + 4 * e 22 + 2 * e 25
  let fe3 := 2 * (e 8 - e 1) + e 1 + e 9 + e 17 - sumchg - 2 * e 26
  let fe2 := e 26 - fe3
  let q := if fe3 < 0 then (99 / 100 * e 26, 1 / 100 * e 26) else (fe2, fe3)
  let q := if q.1 < 0 then (1 / 100 * e 26, 99 / 100 * e 26) else q
  [(e 12 - 5 * e 20 / 2) / 7, q.1 / 7, e 20 / 2]

/-- hornblende.c 243-272. -/
def conHrn (e : ℕ → ℚ) : List ℚ :=
  let sumcat := e 11 + e 12 + e 13 + e 14 + e 19 + e 20 + e 22 + e 24 + e 25 + e 26
  let sumchg := e 11 + 2 * e 12 + 3 * e 13 + 4 * e 14 + e 19 + 2 * e 20 + 4 * e 22 + 3 * e 24 + 2 * e 25
  let fe3 := 23 * sumcat / 8 - sumchg - 2 * e 26
  let fe2 := e 26 - fe3
  let q := if fe3 < 1 / 100 * e 26 then (99 / 100 * e 26, 1 / 100 * e 26) else (fe2, fe3)
  let q := if q.1 < 1 / 100 * e 26 then (1 / 100 * e 26, 99 / 100 * e 26) else q
  [e 12, q.1 / 4, q.2]

/-- library.c 1541-1547, 2030-2038: moles of elements from an analysis in grams of oxides. -/
def analysis (g : Fin 19 → ℚ) (e : ℕ) : ℚ := ∑ o, g o / weight (oxLabel o) * elemRow (oxLabel o) e

/-! ### Specification -/

/-- Elements in `x i` moles of the formulas `f i`. -/
def elementsOf (fs : List String) (x : List ℚ) (e : ℕ) : ℚ := (List.zipWith (fun f a => a * atomsIn f e) fs x).sum

/-- End-members of the solutions in the order of the tables. -/
def olivine : List String := ["Mn2SiO4", "Fe2SiO4", "Co2SiO4", "Ni2SiO4", "CaMgSiO4", "Mg2SiO4"]
def garnet : List String := ["Fe3Al2Si3O12", "Ca3Al2Si3O12", "Mg3Al2Si3O12"]
def melilite : List String := ["Ca2MgSi2O7", "Ca2Al2SiO7", "Ca2FeSi2O7", "Na2Si3O7"]
def pyroxenes : List String := ["CaMgSi2O6", "Mg2Si2O6", "CaFeSi2O6", "CaTi0.5Mg0.5AlSiO6", "CaTi0.5Mg0.5FeSiO6",
  "CaFeAlSiO6", "NaAlSi2O6"]
def cummingtonite : List String := ["Mg7Si8O22(OH)2", "Fe7Si8O22(OH)2"]
def amphibole : List String := ["Mg7Si8O22(OH)2", "Fe7Si8O22(OH)2", "Ca2Mg5Si8O22(OH)2"]
def hornblende : List String := ["NaCa2Mg4AlAl2Si6O22(OH)2", "NaCa2Fe4AlAl2Si6O22(OH)2", "NaCa2Mg4FeAl2Si6O22(OH)2"]
def biotite : List String := ["KFe3Si3AlO10(OH)2", "KMg3Si3AlO10(OH)2"]
def feldspar : List String := ["NaAlSi3O8", "CaAl2Si2O8", "KAlSi3O8"]
def nepheline : List String := ["Na4Al4Si4O16", "K4Al4Si4O16", "Na3Al3Si5O16", "CaNa2Al4Si4O16"]
def leucite : List String := ["KAlSi2O6", "NaAlSi2O5(OH)2", "NaAlSi2O6"]
def spinel : List String := ["FeCr2O4", "FeAl2O4", "Fe3O4", "MgAl2O4", "Fe2TiO4"]
def rhmOxide5 : List String := ["MgTiO3", "Fe2O3", "FeTiO3", "MnTiO3", "Al2O3"]
def rhmOxide4 : List String := ["MgTiO3", "Fe2O3", "FeTiO3", "MnTiO3"]
def orthoOxide : List String := ["Fe2TiO5", "FeTi2O5", "MgTi2O5"]
def fluid : List String := ["H2O", "CO2"]
def alloy : List String := ["Fe", "Ni"]

/-- The formulas of the end-members of the phase in row `i` of a model's table. -/
def endMembers (m : Model) (i : ℕ) : List String :=
  ((m.solTable.drop (i + 1)).takeWhile fun p => !p.1).map (·.2.1)

/-! ### C52 -/

/-- C52. These lists are all the solid solutions of the three models: every solution in the program's tables has one of
them as its end-members, in this order. -/
theorem C52_all_solutions (m : Model) (i : ℕ) (hi : i < m.solTable.length)
    (hs : (m.solTable.getD i (false, "", [])).1 = true) (hf : (m.solTable.getD i (false, "", [])).2.1 = "") :
    endMembers m i ∈ [olivine, garnet, melilite, pyroxenes, cummingtonite, amphibole, hornblende, biotite, feldspar,
      nepheline, leucite, spinel, rhmOxide5, rhmOxide4, orthoOxide, fluid, alloy] := by
  have h : ∀ i < m.solTable.length, (m.solTable.getD i (false, "", [])).1 = true →
    (m.solTable.getD i (false, "", [])).2.1 = "" →
    endMembers m i ∈ [olivine, garnet, melilite, pyroxenes, cummingtonite, amphibole, hornblende, biotite, feldspar,
      nepheline, leucite, spinel, rhmOxide5, rhmOxide4, orthoOxide, fluid, alloy] := by
    cases m <;> decide +kernel
  exact h i hi hs hf

/-- C52. From the elements in any amounts of its end-members, these functions recover exactly those amounts. -/
theorem C52_recovered (a b c d f g : ℚ) :
    conOlv (elementsOf olivine [a, b, c, d, f, g]) = [a, b, c, d, f, g] ∧
    conGrn (elementsOf garnet [a, b, c]) = [a, b, c] ∧
    conMel (elementsOf melilite [a, b, c, d]) = [a, b, c, d] ∧
    conCum (elementsOf cummingtonite [a, b]) = [a, b] ∧
    conBio (elementsOf biotite [a, b]) = [a, b] ∧
    conFld (elementsOf feldspar [a, b, c]) = [a, b, c] ∧
    conNph (elementsOf nepheline [a, b, c, d]) = [a, b, c, d] ∧
    conKal (elementsOf nepheline [a, b, c, d]) = [a, b, c, d] ∧
    conLeu (elementsOf leucite [a, b, c]) = [a, b, c] ∧
    conFlu (elementsOf fluid [a, b]) = [a, b] ∧
    conAlloy (elementsOf alloy [a, b]) = [a, b] := by
  refine ⟨?_, ?_, ?_, ?_, ?_, ?_, ?_, ?_, ?_, ?_, ?_⟩ <;>
  simp only [conOlv, conGrn, conMel, conCum, conBio, conFld, conNph, conKal, conLeu, conFlu, conAlloy, elementsOf, olivine,
    garnet, melilite, cummingtonite, biotite, feldspar, nepheline, leucite, fluid, alloy] <;>
  simp [ev] <;>
  (try constructor) <;> (try ring_nf) <;> (try constructor) <;> (try ring_nf)

/-- C52. The iron oxides, whose ferric iron is found by charge balance: recovered exactly when the amount of the
ferric end-member is not negative (for spinel: and hercynite is not a negative amount smaller than `root`, which is
cleared; for the MELTS rhombohedral oxide: and ilmenite is not negative). -/
theorem C52_iron_oxides_recovered (eps root a b c d f : ℚ) :
    (0 ≤ c → (b < 0 → root ≤ -b) → conSpn eps root (elementsOf spinel [a, b, c, d, f]) = [a, b, c, d, f]) ∧
    (0 ≤ b → 0 ≤ c → conMsg (elementsOf rhmOxide5 [a, b, c, d, f]) = [a, b, c, d, f]) ∧
    (0 ≤ b → conRhm (elementsOf rhmOxide4 [a, b, c, d]) = [a, b, c, d]) ∧
    (0 ≤ a → conOox (elementsOf orthoOxide [a, b, c]) = [a, b, c]) := by
  refine ⟨fun hc hb => ?_, fun hb hc => ?_, fun hb => ?_, fun ha => ?_⟩
  · have h12 : elementsOf spinel [a, b, c, d, f] 12 = d := by simp [elementsOf, spinel, ev]
    have h13 : elementsOf spinel [a, b, c, d, f] 13 = 2 * b + 2 * d := by simp [elementsOf, spinel, ev]; ring
    have h22 : elementsOf spinel [a, b, c, d, f] 22 = f := by simp [elementsOf, spinel, ev]
    have h24 : elementsOf spinel [a, b, c, d, f] 24 = 2 * a := by simp [elementsOf, spinel, ev]; ring
    have h25 : elementsOf spinel [a, b, c, d, f] 25 = 0 := by simp [elementsOf, spinel, ev]
    have h26 : elementsOf spinel [a, b, c, d, f] 26 = a + b + 3 * c + 2 * f := by simp [elementsOf, spinel, ev]; ring
    have h27 : elementsOf spinel [a, b, c, d, f] 27 = 0 := by simp [elementsOf, spinel, ev]
    have h28 : elementsOf spinel [a, b, c, d, f] 28 = 0 := by simp [elementsOf, spinel, ev]
    have h3 : 8 * (d + (2 * b + 2 * d) + f + 2 * a + 0 + (a + b + 3 * c + 2 * f) + 0 + 0) / 3 -
        (2 * d + 3 * (2 * b + 2 * d) + 4 * f + 3 * (2 * a) + 2 * 0 + 2 * 0 + 2 * 0) -
        2 * (a + b + 3 * c + 2 * f) = 2 * c := by ring
    have hn : ¬ 2 * c < 0 := by linarith
    simp only [conSpn, h12, h13, h22, h24, h25, h26, h27, h28, h3, if_neg hn]
    have hp : (if a + b + 3 * c + 2 * f - 2 * c + d + 0 = 0 then (1 : ℚ) else
        (a + b + 3 * c + 2 * f - 2 * c + 0 + d + 0 + 0) / (a + b + 3 * c + 2 * f - 2 * c + d + 0)) = 1 := by
      split_ifs with h
      · rfl
      · rw [div_eq_one_iff_eq h]; ring
    rw [hp]
    have h1 : ((a + b + 3 * c + 2 * f - 2 * c) * 1 + 0 * 1 - 2 * a * 1 / 2 - 2 * c / 2 - 2 * f * 1) * 1 = b := by ring
    rw [h1, if_neg]
    · simp
    · rintro ⟨h, h'⟩
      rw [abs_of_neg h] at h'
      linarith [hb h]
  · simp only [conMsg, elementsOf, rhmOxide5]
    simp [ev]
    ring_nf
    rw [if_neg (not_lt.mpr hb), if_neg (by linarith)]
    simp
  · simp only [conRhm, elementsOf, rhmOxide4]
    simp [ev]
    ring_nf
    rw [if_neg (not_lt.mpr hb)]
    simp
  · have h12 : elementsOf orthoOxide [a, b, c] 12 = c := by simp [elementsOf, orthoOxide, ev]
    have h13 : elementsOf orthoOxide [a, b, c] 13 = 0 := by simp [elementsOf, orthoOxide, ev]
    have h22 : elementsOf orthoOxide [a, b, c] 22 = a + 2 * b + 2 * c := by simp [elementsOf, orthoOxide, ev]; ring
    have h24 : elementsOf orthoOxide [a, b, c] 24 = 0 := by simp [elementsOf, orthoOxide, ev]
    have h25 : elementsOf orthoOxide [a, b, c] 25 = 0 := by simp [elementsOf, orthoOxide, ev]
    have h26 : elementsOf orthoOxide [a, b, c] 26 = 2 * a + b := by simp [elementsOf, orthoOxide, ev]; ring
    have h27 : elementsOf orthoOxide [a, b, c] 27 = 0 := by simp [elementsOf, orthoOxide, ev]
    have h28 : elementsOf orthoOxide [a, b, c] 28 = 0 := by simp [elementsOf, orthoOxide, ev]
    have h3 : 10 * (c + 0 + (a + 2 * b + 2 * c) + 0 + 0 + (2 * a + b) + 0 + 0) / 3 -
        (2 * c + 3 * 0 + 4 * (a + 2 * b + 2 * c) + 3 * 0 + 2 * 0 + 2 * 0 + 2 * 0) - 2 * (2 * a + b) = 2 * a := by ring
    have hn : ¬ 2 * a < 0 := by linarith
    simp only [conOox, h12, h13, h22, h24, h25, h26, h27, h28, h3, if_neg hn]
    simp only [List.cons.injEq, and_true]
    constructor <;> ring

/-- Elements of a pyroxene. -/
theorem pyroxene_elements (a b c d f g h : ℚ) :
    let e := elementsOf pyroxenes [a, b, c, d, f, g, h]
    e 11 = h ∧ e 12 = a + 2 * b + d / 2 + f / 2 ∧ e 13 = d + g + h ∧ e 14 = 2 * a + 2 * b + 2 * c + d + f + g + 2 * h ∧
    e 20 = a + c + d + f + g ∧ e 22 = d / 2 + f / 2 ∧ e 24 = 0 ∧ e 25 = 0 ∧ e 26 = c + f + g := by
  intro e
  refine ⟨?_, ?_, ?_, ?_, ?_, ?_, ?_, ?_, ?_⟩ <;> simp [e, elementsOf, pyroxenes, ev] <;> ring

/-- With the right split of iron the last lines recover the pyroxene. -/
theorem pyroxene_split (a b c d f g h : ℚ) :
    pyroxene (elementsOf pyroxenes [a, b, c, d, f, g, h]) c (f + g) = [a, b, c, d, f, g, h] := by
  obtain ⟨e11, e12, e13, e14, e20, e22, e24, e25, e26⟩ := pyroxene_elements a b c d f g h
  simp only [pyroxene, e11, e12, e13, e20, e22, e24, e25]
  simp only [List.cons.injEq, and_true]
  refine ⟨?_, ?_, ?_, ?_, ?_, ?_⟩ <;> ring

theorem pyroxene_cations (a b c d f g h : ℚ) :
    cations (elementsOf pyroxenes [a, b, c, d, f, g, h]) = 4 * (a + b + c + d + f + g + h) ∧
    charges (elementsOf pyroxenes [a, b, c, d, f, g, h]) =
      12 * (a + b + c + d + f + g + h) - 2 * c - 3 * (f + g) := by
  obtain ⟨e11, e12, e13, e14, e20, e22, e24, e25, e26⟩ := pyroxene_elements a b c d f g h
  simp only [cations, charges, e11, e12, e13, e14, e20, e22, e24, e25, e26]
  constructor <;> ring

/-- C52. Pyroxenes through the library: recovered exactly when neither ferrous nor ferric iron is negative, at any
pressure, for negative amounts of the other end-members too. -/
theorem C52_library_pyroxenes (a b c d f g h : ℚ) (h2 : 0 ≤ c) (h3 : 0 ≤ f + g) :
    libPyroxene (elementsOf pyroxenes [a, b, c, d, f, g, h]) = [a, b, c, d, f, g, h] := by
  obtain ⟨e11, e12, e13, e14, e20, e22, e24, e25, e26⟩ := pyroxene_elements a b c d f g h
  obtain ⟨hc, hq⟩ := pyroxene_cations a b c d f g h
  have k3 : 3 * (4 * (a + b + c + d + f + g + h)) -
      (12 * (a + b + c + d + f + g + h) - 2 * c - 3 * (f + g)) - 2 * (c + f + g) = f + g := by ring
  have k2 : c + f + g - (f + g) = c := by ring
  simp only [libPyroxene, e26, hc, hq, k3, k2, if_neg (not_lt.mpr h3), if_neg (not_lt.mpr h2)]
  exact pyroxene_split a b c d f g h

/-- C52. The pyroxenes' own functions. Clinopyroxene, below 1000 bar or with more sodium than aluminium: recovered when ferrous and
ferric iron are each at least one per cent of the iron and clinoenstatite is not negative. Clinopyroxene otherwise, and
orthopyroxene always: recovered exactly when there is no ferric iron. -/
theorem C52_pyroxenes_recovered (p a b c d f g h : ℚ) :
    (p < 1000 ∨ h > d + g + h → 0 ≤ b → c + f + g ≤ 100 * c → c + f + g ≤ 100 * (f + g) →
      conCpx p (elementsOf pyroxenes [a, b, c, d, f, g, h]) = [a, b, c, d, f, g, h]) ∧
    (1000 ≤ p → h ≤ d + g + h →
      (conCpx p (elementsOf pyroxenes [a, b, c, d, f, g, h]) = [a, b, c, d, f, g, h] ↔ f + g = 0)) ∧
    (conOpx (elementsOf pyroxenes [a, b, c, d, f, g, h]) = [a, b, c, d, f, g, h] ↔ f + g = 0) := by
  obtain ⟨e11, e12, e13, e14, e20, e22, e24, e25, e26⟩ := pyroxene_elements a b c d f g h
  obtain ⟨hc, hq⟩ := pyroxene_cations a b c d f g h
  have hsplit := pyroxene_split a b c d f g h
  have hO : pyroxene (elementsOf pyroxenes [a, b, c, d, f, g, h]) (c + f + g) 0 = [a, b, c, d, f, g, h] ↔ f + g = 0 := by
    constructor
    · intro he
      have := congrArg (fun l : List ℚ => l.getD 2 0) he
      simp [pyroxene, e25] at this
      linarith
    · intro he
      have : c + f + g = c := by linarith
      rw [this, ← he]
      exact hsplit
  refine ⟨fun hp hb h2 h3 => ?_, fun hp hna => ?_, ?_⟩
  · have hcor : ¬ h + (a + c + d + f + g) > 25 / 100 * (4 * (a + b + c + d + f + g + h)) := by
      intro hh; linarith
    have k3 : 3 * (4 * (a + b + c + d + f + g + h) + 0) -
        (12 * (a + b + c + d + f + g + h) - 2 * c - 3 * (f + g)) - 2 * (c + f + g) = f + g := by ring
    have k2 : c + f + g - (f + g) = c := by ring
    have n3 : ¬ f + g < 1 / 100 * (c + f + g) := by intro hh; linarith
    have n2 : ¬ c < 1 / 100 * (c + f + g) := by intro hh; linarith
    simp only [conCpx, e11, e13, e20, e26, hc, hq, if_neg hcor, if_pos hp, k3, k2, if_neg n3, if_neg n2]
    exact hsplit
  · have hn : ¬ (p < 1000 ∨ h > d + g + h) := by
      rintro (hh | hh) <;> linarith
    simp only [conCpx, e11, e13, e26, if_neg hn]
    exact hO
  · simp only [conOpx, e26]
    exact hO

/-- C52. Clinopyroxene with clinoenstatite negative, i.e. more than one Ca + Na per formula: the silica correction is
counted as ferric iron, 12 times the missing amount. Shown on diopside with a little Ca in the place of Mg: iron-free
CaMgSi2O6 1.01 moles, Mg2Si2O6 -0.01 moles; nothing changes because there is no iron to divide, but with one tenth of a mole of
hedenbergite all but one per cent of its iron becomes ferric. -/
theorem C52_clinopyroxene_calcium_rich :
    (conCpx 1 (elementsOf pyroxenes [101 / 100, -1 / 100, 0, 0, 0, 0, 0]) = [101 / 100, -1 / 100, 0, 0, 0, 0, 0]) ∧
    (conCpx 1 (elementsOf pyroxenes [91 / 100, -1 / 100, 1 / 10, 0, 0, 0, 0])).getD 2 0 = 1 / 1000 := by
  constructor
  · obtain ⟨e11, e12, e13, e14, e20, e22, e24, e25, e26⟩ := pyroxene_elements (101 / 100) (-1 / 100) 0 0 0 0 0
    simp only [conCpx, pyroxene, cations, charges, e11, e12, e13, e14, e20, e22, e24, e25, e26]
    norm_num
  · obtain ⟨e11, e12, e13, e14, e20, e22, e24, e25, e26⟩ := pyroxene_elements (91 / 100) (-1 / 100) (1 / 10) 0 0 0 0
    simp only [conCpx, pyroxene, cations, charges, e11, e12, e13, e14, e20, e22, e24, e25, e26]
    norm_num

/-- C52. Amphibole: recovered when grunerite is not negative. But the ferric iron is the difference of two equal numbers, and
any lack of oxygen, however small, is answered by moving a full per cent of the iron: `x` moles of O missing change grunerite to
99/100 of its amount. -/
theorem C52_amphibole (a b c : ℚ) :
    (0 ≤ b → conAph (elementsOf amphibole [a, b, c]) = [a, b, c]) ∧
    (∀ x, 0 < x → 0 ≤ b →
      conAph (fun e => elementsOf amphibole [a, b, c] e - if e = 8 then x else 0) = [a, 99 / 100 * b, c]) := by
  have h1 : elementsOf amphibole [a, b, c] 1 = 2 * (a + b + c) := by simp [elementsOf, amphibole, ev]; ring
  have h8 : elementsOf amphibole [a, b, c] 8 = 24 * (a + b + c) := by simp [elementsOf, amphibole, ev]; ring
  have h9 : elementsOf amphibole [a, b, c] 9 = 0 := by simp [elementsOf, amphibole, ev]
  have h11 : elementsOf amphibole [a, b, c] 11 = 0 := by simp [elementsOf, amphibole, ev]
  have h12 : elementsOf amphibole [a, b, c] 12 = 7 * a + 5 * c := by simp [elementsOf, amphibole, ev]; ring
  have h13 : elementsOf amphibole [a, b, c] 13 = 0 := by simp [elementsOf, amphibole, ev]
  have h14 : elementsOf amphibole [a, b, c] 14 = 8 * (a + b + c) := by simp [elementsOf, amphibole, ev]; ring
  have h17 : elementsOf amphibole [a, b, c] 17 = 0 := by simp [elementsOf, amphibole, ev]
  have h20 : elementsOf amphibole [a, b, c] 20 = 2 * c := by simp [elementsOf, amphibole, ev]; ring
  have h22 : elementsOf amphibole [a, b, c] 22 = 0 := by simp [elementsOf, amphibole, ev]
  have h25 : elementsOf amphibole [a, b, c] 25 = 0 := by simp [elementsOf, amphibole, ev]
  have h26 : elementsOf amphibole [a, b, c] 26 = 7 * b := by simp [elementsOf, amphibole, ev]; ring
  constructor
  · intro hb
    have k3 : 2 * (24 * (a + b + c) - 2 * (a + b + c)) + 2 * (a + b + c) + 0 + 0 -
      (0 + 2 * (7 * a + 5 * c) + 3 * 0 + 4 * (8 * (a + b + c)) + 2 * (2 * c) + 4 * 0 + 2 * 0) - 2 * (7 * b) = 0 := by ring
    have n2 : ¬ 7 * b - 0 < 0 := by intro hh; linarith
    simp only [conAph, h1, h8, h9, h11, h12, h13, h14, h17, h20, h22, h25, h26, k3, if_neg (lt_irrefl (0 : ℚ)), if_neg n2]
    simp only [List.cons.injEq, and_true]
    refine ⟨?_, ?_, ?_⟩ <;> ring
  · intro x hx hb
    have hk : ∀ k y, k ≠ 8 → elementsOf amphibole [a, b, c] k = y →
        (fun e => elementsOf amphibole [a, b, c] e - if e = 8 then x else 0) k = y := by
      intro k y hk hy
      simp only [if_neg hk, sub_zero, hy]
    have hk8 : (fun e => elementsOf amphibole [a, b, c] e - if e = 8 then x else 0) 8 = 24 * (a + b + c) - x := by
      simp [h8]
    generalize (fun e => elementsOf amphibole [a, b, c] e - if e = 8 then x else 0) = E at hk hk8 ⊢
    have k3 : 2 * (24 * (a + b + c) - x - 2 * (a + b + c)) + 2 * (a + b + c) + 0 + 0 -
      (0 + 2 * (7 * a + 5 * c) + 3 * 0 + 4 * (8 * (a + b + c)) + 2 * (2 * c) + 4 * 0 + 2 * 0) - 2 * (7 * b) = -(2 * x) := by ring
    have p3 : -(2 * x) < 0 := by linarith
    have n2 : ¬ 99 / 100 * (7 * b) < 0 := by intro hh; linarith
    simp only [conAph, hk8, hk 1 _ (by decide) h1, hk 9 _ (by decide) h9, hk 11 _ (by decide) h11, hk 12 _ (by decide) h12,
      hk 13 _ (by decide) h13, hk 14 _ (by decide) h14, hk 17 _ (by decide) h17, hk 20 _ (by decide) h20,
      hk 22 _ (by decide) h22, hk 25 _ (by decide) h25, hk 26 _ (by decide) h26, k3, if_pos p3, if_neg n2]
    simp only [List.cons.injEq, and_true]
    refine ⟨?_, ?_, ?_⟩ <;> ring

/-- C52. Finding: hornblende is never recovered unless it is free of Mg in the right proportion. Pargasite is reported as all
the magnesium, without dividing by its four atoms or subtracting what magnesiohastingsite holds. -/
theorem C52_hornblende_wrong (a b c : ℚ) (h3 : 4 * b + c ≤ 100 * c) (h2 : 4 * b + c ≤ 100 * (4 * b)) :
    conHrn (elementsOf hornblende [a, b, c]) = [4 * a + 4 * c, b, c] ∧
    (conHrn (elementsOf hornblende [a, b, c]) = [a, b, c] ↔ 3 * a + 4 * c = 0) := by
  have h11 : elementsOf hornblende [a, b, c] 11 = a + b + c := by simp [elementsOf, hornblende, ev]; ring
  have h12 : elementsOf hornblende [a, b, c] 12 = 4 * a + 4 * c := by simp [elementsOf, hornblende, ev]; ring
  have h13 : elementsOf hornblende [a, b, c] 13 = 3 * a + 3 * b + 2 * c := by simp [elementsOf, hornblende, ev]; ring
  have h14 : elementsOf hornblende [a, b, c] 14 = 6 * (a + b + c) := by simp [elementsOf, hornblende, ev]; ring
  have h19 : elementsOf hornblende [a, b, c] 19 = 0 := by simp [elementsOf, hornblende, ev]
  have h20 : elementsOf hornblende [a, b, c] 20 = 2 * (a + b + c) := by simp [elementsOf, hornblende, ev]; ring
  have h22 : elementsOf hornblende [a, b, c] 22 = 0 := by simp [elementsOf, hornblende, ev]
  have h24 : elementsOf hornblende [a, b, c] 24 = 0 := by simp [elementsOf, hornblende, ev]
  have h25 : elementsOf hornblende [a, b, c] 25 = 0 := by simp [elementsOf, hornblende, ev]
  have h26 : elementsOf hornblende [a, b, c] 26 = 4 * b + c := by simp [elementsOf, hornblende, ev]; ring
  have key : conHrn (elementsOf hornblende [a, b, c]) = [4 * a + 4 * c, b, c] := by
    have k3 : 23 * (a + b + c + (4 * a + 4 * c) + (3 * a + 3 * b + 2 * c) + 6 * (a + b + c) + 0 + 2 * (a + b + c) +
        0 + 0 + 0 + (4 * b + c)) / 8 -
        (a + b + c + 2 * (4 * a + 4 * c) + 3 * (3 * a + 3 * b + 2 * c) + 4 * (6 * (a + b + c)) + 0 +
        2 * (2 * (a + b + c)) + 4 * 0 + 3 * 0 + 2 * 0) - 2 * (4 * b + c) = c := by ring
    have k2 : 4 * b + c - c = 4 * b := by ring
    have n3 : ¬ c < 1 / 100 * (4 * b + c) := by intro hh; linarith
    have n2 : ¬ 4 * b < 1 / 100 * (4 * b + c) := by intro hh; linarith
    simp only [conHrn, h11, h12, h13, h14, h19, h20, h22, h24, h25, h26, k3, k2, if_neg n3, if_neg n2]
    simp only [List.cons.injEq, and_true, true_and]
    ring
  refine ⟨key, ?_⟩
  rw [key]
  simp only [List.cons.injEq, and_true]
  constructor <;> intro hh <;> linarith

theorem zip_mul {A : Type} (k : A → ℚ) (w : ℚ) (l : List A) (x : List ℚ) :
    (List.zipWith (fun r a => a * k r) l x).sum * w = (List.zipWith (fun r a => a * (k r * w)) l x).sum := by
  induction l generalizing x with
  | nil => simp
  | cons r l ih =>
    cases x with
    | nil => simp
    | cons a x => simp only [List.zipWith_cons_cons, List.sum_cons, add_mul, ih x, mul_assoc]

/-- C52. What the library is given for a phase is grams of oxides. If they are the oxides the program itself
reports for `x i` moles of solids `f i` of its table (their `solToOx` times the oxides' weights), the elements the library computes
from them are those in the formulas, for every model, so the recovery theorems apply. -/
theorem C52_analysis_of_reported (m : Model) (tau : ℚ) (ht : tau ≤ 1 / 16) (tb : Tables 19 19 ℚ)
    (rows : List (SRow 19 19 ℚ)) (hC : Computed tau oxLabel m.liqLabel m.solFormulas tb rows)
    (k n : ℕ) (hk : k + n ≤ m.solFormulas.length) (x : List ℚ) (hx : x.length = n) (e : ℕ)
    (hmw : ∀ o, weight (oxLabel o) ≠ 0) :
    analysis (fun o => (List.zipWith (fun (r : SRow 19 19 ℚ) a => a * r.solToOx o) ((rows.drop k).take n) x).sum *
      weight (oxLabel o)) e =
    (List.zipWith (fun f a => a * elemRow f e) ((m.solFormulas.drop k).take n) x).sum := by
  unfold analysis
  have h0 : ∀ o, (List.zipWith (fun (r : SRow 19 19 ℚ) a => a * r.solToOx o) ((rows.drop k).take n) x).sum *
      weight (oxLabel o) / weight (oxLabel o) * elemRow (oxLabel o) e =
      (List.zipWith (fun (r : SRow 19 19 ℚ) a => a * (r.solToOx o * elemRow (oxLabel o) e)) ((rows.drop k).take n) x).sum := by
    intro o
    rw [mul_div_assoc, div_self (hmw o), mul_one]
    exact zip_mul _ _ _ _
  simp only [h0]
  have swap : ∀ (l : List (SRow 19 19 ℚ)) (x : List ℚ),
      ∑ o, (List.zipWith (fun (r : SRow 19 19 ℚ) a => a * (r.solToOx o * elemRow (oxLabel o) e)) l x).sum =
      (List.zipWith (fun (r : SRow 19 19 ℚ) a => a * ∑ o, r.solToOx o * elemRow (oxLabel o) e) l x).sum := by
    intro l
    induction l with
    | nil => intro x; simp
    | cons r l ih =>
      intro x
      cases x with
      | nil => simp
      | cons a x =>
        simp only [List.zipWith_cons_cons, List.sum_cons, Finset.sum_add_distrib, ih x, Finset.mul_sum]
  rw [swap]
  congr 1
  have hlen := hC.len
  apply List.ext_getElem
  · simp [hlen]
  · intro i h1 h2
    simp only [List.length_zipWith, List.length_take, List.length_drop] at h1 h2
    simp only [List.getElem_zipWith, List.getElem_take, List.getElem_drop]
    rw [((C58_elements_conserved ht hC e).2.2 (k + i) (by omega) (by omega)).1]

/-- The weights are not zero. -/
theorem weights_ne_zero (o : Fin 19) : weight (oxLabel o) ≠ 0 := by
  revert o; decide +kernel

/-! ### Concrete cases -/

/-- Two moles of a Fe-Mg olivine with some monticellite. -/
example : conOlv (elementsOf olivine [0, 2 / 5, 0, 0, 1 / 10, 3 / 2]) = [0, 2 / 5, 0, 0, 1 / 10, 3 / 2] :=
  (C52_recovered _ _ _ _ _ _).1

/-- A spinel with a negative amount of hercynite, MgFe2O4 in half: allowed. -/
example : conSpn (1 / 2 ^ 52) (1 / 2 ^ 26) (elementsOf spinel [1 / 10, -1 / 2, 1 / 2, 1 / 2, 1 / 10]) =
    [1 / 10, -1 / 2, 1 / 2, 1 / 2, 1 / 10] :=
  (C52_iron_oxides_recovered _ _ _ _ _ _ _).1 (by norm_num) (by norm_num)

/-- A ferric orthopyroxene: the library recovers it, the phase's own function does not. -/
example : libPyroxene (elementsOf pyroxenes [0, 1, 1 / 5, 0, 1 / 20, 1 / 20, 0]) = [0, 1, 1 / 5, 0, 1 / 20, 1 / 20, 0] ∧
    conOpx (elementsOf pyroxenes [0, 1, 1 / 5, 0, 1 / 20, 1 / 20, 0]) ≠ [0, 1, 1 / 5, 0, 1 / 20, 1 / 20, 0] :=
  ⟨C52_library_pyroxenes _ _ _ _ _ _ _ (by norm_num) (by norm_num),
    fun h => absurd ((C52_pyroxenes_recovered 0 _ _ _ _ _ _ _).2.2.mp h) (by norm_num)⟩

/-- One mole of pargasite is reported as four. -/
example : conHrn (elementsOf hornblende [1, 0, 0]) = [4, 0, 0] := by
  have := (C52_hornblende_wrong 1 0 0 (by norm_num) (by norm_num)).1
  norm_num at this
  exact this

end Magma.Thermo.Elements
