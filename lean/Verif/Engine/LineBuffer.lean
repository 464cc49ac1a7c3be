import Verif.Engine.LineDescent
import Verif.Engine.BufferStep
import Verif.Engine.BufferExample
import Mathlib.Analysis.SpecialFunctions.ExpDeriv

/-!
Model of `linearSearch` under an oxygen buffer at given temperature and pressure, /repo/sources/linear_search.c 274-312, 669-691, 709-767.

Simplifications: as in `Engine/LineSearch`; the solids after the subsolidus correction (289-311) are an argument (`subsolidusmuO2` is the subject of
C75); `oxygen.cur` is the standard state of oxygen at the temperature and pressure.
-/

namespace Magma.Engine.System

open Finset Filter Topology Magma.Thermo.Extensive Magma.Thermo.Compo Magma.Thermo.Redox
open Magma.Thermo.Mixing (Mix)
open Magma.Thermo.MuO2 (oxides)
open Verif.Thermo.StdState (Std)

noncomputable section

/-! ### The code -/

/-- The tables of the liquid: the oxides FeO and Fe2O3, the coefficients of the redox relation, `liqToOx` and `oxToLiq`. -/
structure Melt (nc : ℕ) where
  capped : Bool
  fe2 : Fin nc
  fe3 : Fin nc
  coeff : Fin nc → ℝ
  toOx : (ph : Phase) → Fin ph.na → Fin nc → ℝ
  toLiq : (ph : Phase) → Fin nc → Fin ph.na → ℝ

variable {nc : ℕ}

/-- linear_search.c 279-284: the liquid with its iron brought to `log10 fO2 = f`. -/
def Melt.set (M : Melt nc) (T P f : ℝ) (ph : Phase) (m : Fin ph.na → ℝ) (i : Fin ph.na) : ℝ :=
  m i + (-m i + ∑ j, M.toLiq ph j i * setRedox M.capped M.fe2 M.fe3 M.coeff T P f (oxides (M.toOx ph) m) j)

/-- linear_search.c 219, 237, 247, 279-284: the amounts after the step and the correction. -/
def Melt.settled (M : Melt nc) (T P f : ℝ) (x : ℕ → ℝ) (lam : ℝ) (k : ℕ) (ph : Phase) (j : Fin ph.na) : ℝ :=
  if ph.liq then M.set T P f ph (ph.after k x lam) j else ph.after k x lam j

/-- linear_search.c 287: the corrected liquids are tested again. -/
def settledOk (test : (ph : Phase) → (Fin ph.na → ℝ) → Bool) (amt : ℕ → (ph : Phase) → Fin ph.na → ℝ) : ℕ → List Phase → Prop
  | _, [] => True
  | k, ph :: L => (ph.liq = true → test ph (amt k ph) = true) ∧ settledOk test amt (k + ph.slots.length) L

/-- linear_search.c 696-760 at given temperature and pressure: what a phase adds. -/
def gibbsOf (T P : ℝ) (amt : ℕ → (ph : Phase) → Fin ph.na → ℝ) (k : ℕ) (ph : Phase) : ℝ :=
  if ph.pure then ∑ j, amt k ph j * (ph.std j T P).g
  else (∑ j, amt k ph j * (ph.std j T P).g) + (∑ j, amt k ph j) * ph.mix.g T P (ph.conv.toR (amt k ph))

/-- linear_search.c 285, 727, 736, 764-765: the oxygen in a phase. -/
def oxyOf (amt : ℕ → (ph : Phase) → Fin ph.na → ℝ) (k : ℕ) (ph : Phase) : ℝ := ∑ j, ph.o2 j * amt k ph j

/-- linear_search.c 165-785 at given temperature and pressure, on a buffer, with the liquid `l` first; `f` is `silminState->fo2`. -/
def bufferedSearch (M : Melt nc) (o : ℝ → ℝ → Std) (test : (ph : Phase) → (Fin ph.na → ℝ) → Bool) (T P f : ℝ) (l : Phase) (rest : List Phase) (x : ℕ → ℝ)
    (lam : ℝ) : Option ℝ := by
  classical
  exact
    if admitted .gibbs test (l :: rest) x lam 0 ∧ settledOk test (M.settled T P f x lam) 0 (l :: rest) then
      some (sumAt (gibbsOf T P (M.settled T P f x lam)) 0 (l :: rest)
        - sumAt (oxyOf (M.settled T P f x lam)) 0 (l :: rest)
          * ((Oxy.melts M.capped M.fe2 M.fe3 M.coeff (M.toOx l)).mu T P (M.settled T P f x lam 0 l) + (o T P).g))
    else none

/-- The same without liquid: `sol` are the amounts after the correction by `subsolidusmuO2` (289-311, 717-735), `stale` what is found in
`muO2L[0]`, which is set in the presence of liquid only (675-681). -/
def subsolidusSearch (test : (ph : Phase) → (Fin ph.na → ℝ) → Bool) (sol : ℝ → ℕ → (ph : Phase) → Fin ph.na → ℝ) (stale T P : ℝ) (L : List Phase)
    (x : ℕ → ℝ) (lam : ℝ) : Option ℝ := by
  classical
  exact
    if admitted .gibbs test L x lam 0 then some (sumAt (gibbsOf T P (sol lam)) 0 L - sumAt (oxyOf (sol lam)) 0 L * stale) else none

/-! ### Specification -/

/-- The two tables of a liquid are inverse to each other. -/
def Melt.Inverse (M : Melt nc) (ph : Phase) : Prop :=
  (∀ (v : Fin nc → ℝ) i, ∑ j, M.toOx ph j i * ∑ k, M.toLiq ph k j * v k = v i) ∧
  ∀ (m : Fin ph.na → ℝ) i, ∑ j, M.toLiq ph j i * oxides (M.toOx ph) m j = m i

/-- The change of the liquid when half a mole of oxygen oxidises two moles of FeO to one of Fe2O3. -/
def Melt.nu (M : Melt nc) (ph : Phase) (i : Fin ph.na) : ℝ := M.toLiq ph M.fe3 i - 2 * M.toLiq ph M.fe2 i

/-- The Fe2O3 made by the correction. -/
def Melt.ferric (M : Melt nc) (T P f : ℝ) (ph : Phase) (m : Fin ph.na → ℝ) : ℝ :=
  setRedox M.capped M.fe2 M.fe3 M.coeff T P f (oxides (M.toOx ph) m) M.fe3 - oxides (M.toOx ph) m M.fe3

/-! ### The correction -/

theorem Melt.set_eq (M : Melt nc) (T P f : ℝ) (ph : Phase) (m : Fin ph.na → ℝ) :
    M.set T P f ph m = fun i => ∑ j, M.toLiq ph j i * setRedox M.capped M.fe2 M.fe3 M.coeff T P f (oxides (M.toOx ph) m) j := by
  funext i
  unfold Melt.set
  ring

theorem Melt.set_oxides (M : Melt nc) (T P f : ℝ) (ph : Phase) (m : Fin ph.na → ℝ) (h : M.Inverse ph) :
    (fun i => ∑ j, M.toOx ph j i * M.set T P f ph m j) = setRedox M.capped M.fe2 M.fe3 M.coeff T P f (oxides (M.toOx ph) m) := by
  funext i
  rw [M.set_eq]
  exact h.1 _ i

/-- The correction moves the liquid along the oxidation of its iron. -/
theorem Melt.set_line (M : Melt nc) (T P f : ℝ) (ph : Phase) (m : Fin ph.na → ℝ) (h : M.Inverse ph) (hne : M.fe2 ≠ M.fe3) (i : Fin ph.na) :
    M.set T P f ph m i = m i + M.ferric T P f ph m * M.nu ph i := by
  rw [M.set_eq]
  set o := oxides (M.toOx ph) m with ho
  set r := setRedox M.capped M.fe2 M.fe3 M.coeff T P f o with hr
  obtain ⟨c1, c2⟩ := C51_iron_conserved M.capped M.fe2 M.fe3 hne M.coeff T P f o
  rw [← hr] at c1 c2
  have hb := h.2 m i
  rw [← ho] at hb
  have e : ∑ j, M.toLiq ph j i * (r j - o j) = M.ferric T P f ph m * M.nu ph i := by
    rw [sum_split M.fe2 M.fe3 hne]
    have z : ∑ j ∈ (univ.erase M.fe2).erase M.fe3, M.toLiq ph j i * (r j - o j) = 0 := by
      refine sum_eq_zero fun j hj => ?_
      simp only [mem_erase] at hj
      rw [c2 j hj.2.1 hj.1, sub_self, mul_zero]
    rw [z]
    unfold Melt.ferric Melt.nu
    rw [← ho, ← hr]
    have : r M.fe2 - o M.fe2 = -2 * (r M.fe3 - o M.fe3) := by
      unfold iron at c1
      linarith
    rw [this]
    ring
  have e2 : ∑ j, M.toLiq ph j i * (r j - o j) = (∑ j, M.toLiq ph j i * r j) - m i := by
    rw [← hb, ← sum_sub_distrib]
    exact sum_congr rfl fun j _ => by ring
  rw [e2] at e
  change ∑ j, M.toLiq ph j i * r j = _
  linarith

/-- **C76.** The correction that the line search makes to a liquid exchanges oxygen only: iron as a whole and all other oxides stay as the step left
them. -/
theorem C76_buffered_oxides (M : Melt nc) (T P f : ℝ) (ph : Phase) (x : ℕ → ℝ) (lam : ℝ) (k : ℕ) (hl : ph.liq = true) (h : M.Inverse ph)
    (hne : M.fe2 ≠ M.fe3) :
    (∀ i, i ≠ M.fe2 → i ≠ M.fe3 → oxides (M.toOx ph) (M.settled T P f x lam k ph) i = oxides (M.toOx ph) (ph.after k x lam) i) ∧
    iron M.fe2 M.fe3 (oxides (M.toOx ph) (M.settled T P f x lam k ph)) = iron M.fe2 M.fe3 (oxides (M.toOx ph) (ph.after k x lam)) := by
  have e : oxides (M.toOx ph) (M.settled T P f x lam k ph)
      = setRedox M.capped M.fe2 M.fe3 M.coeff T P f (oxides (M.toOx ph) (ph.after k x lam)) := by
    rw [← M.set_oxides T P f ph _ h]
    funext i
    unfold oxides Melt.settled
    simp only [hl, if_true]
  rw [e]
  obtain ⟨c1, c2⟩ := C51_iron_conserved M.capped M.fe2 M.fe3 hne M.coeff T P f (oxides (M.toOx ph) (ph.after k x lam))
  exact ⟨c2, c1⟩

theorem gibbsOf_eq (T P : ℝ) (amt : ℕ → (ph : Phase) → Fin ph.na → ℝ) (k : ℕ) (ph : Phase) : gibbsOf T P amt k ph = ph.G T P (amt k ph) := by
  unfold gibbsOf Phase.G
  split_ifs <;> ring

theorem settled_mu (M : Melt nc) (T P f : ℝ) (l : Phase) (x : ℕ → ℝ) (lam : ℝ) (hl : l.liq = true) (h : M.Inverse l) (hne : M.fe2 ≠ M.fe3)
    (hfe : IronBearing M.fe2 M.fe3 (oxides (M.toOx l) (l.after 0 x lam))) :
    (Oxy.melts M.capped M.fe2 M.fe3 M.coeff (M.toOx l)).mu T P (M.settled T P f x lam 0 l) = Magma.Thermo.MuO2.R * T * Real.log 10 * f := by
  refine Magma.Thermo.MuO2.C59_potential_after_set M.capped M.fe2 M.fe3 hne M.coeff (M.toOx l) T P f (oxides (M.toOx l) (l.after 0 x lam)) _ hfe ?_
  rw [← M.set_oxides T P f l _ h]
  funext i
  unfold Melt.settled
  simp only [hl, if_true]

theorem admitted_iff (test : (ph : Phase) → (Fin ph.na → ℝ) → Bool) (L : List Phase) (x : ℕ → ℝ) (lam v : ℝ) :
    admitted .gibbs test L x lam v ↔ |lam| ≤ 2 ∧ feasible test x lam 0 L := by
  unfold admitted
  rw [abs_le]
  simp only [and_true, not_or, not_lt, gt_iff_lt]

/-- **C76.** On a buffer, with a first liquid that holds iron, the line search sees the potential of the system open to oxygen: the Gibbs energy of the
assemblage with its liquids brought to the buffer, less its oxygen at the potential of the buffer. -/
theorem C76_buffered_value (M : Melt nc) (o : ℝ → ℝ → Std) (test : (ph : Phase) → (Fin ph.na → ℝ) → Bool) (T P f : ℝ) (l : Phase) (rest : List Phase)
    (x : ℕ → ℝ) (lam v : ℝ) (hl : l.liq = true) (h : M.Inverse l) (hne : M.fe2 ≠ M.fe3)
    (hfe : IronBearing M.fe2 M.fe3 (oxides (M.toOx l) (l.after 0 x lam))) :
    bufferedSearch M o test T P f l rest x lam = some v ↔
      (|lam| ≤ 2 ∧ feasible test x lam 0 (l :: rest) ∧ settledOk test (M.settled T P f x lam) 0 (l :: rest)) ∧
      v = sumAt (fun k ph => ph.G T P (M.settled T P f x lam k ph)) 0 (l :: rest)
        - sumAt (fun k ph => ∑ j, ph.o2 j * M.settled T P f x lam k ph j) 0 (l :: rest)
          * ((o T P).g + Magma.Thermo.MuO2.R * T * Real.log 10 * f) := by
  unfold bufferedSearch
  rw [admitted_iff, settled_mu M T P f l x lam hl h hne hfe]
  have e1 : gibbsOf T P (M.settled T P f x lam) = fun k ph => ph.G T P (M.settled T P f x lam k ph) := by
    funext k ph
    exact gibbsOf_eq T P _ k ph
  have e2 : oxyOf (M.settled T P f x lam) = fun k ph => ∑ j, ph.o2 j * M.settled T P f x lam k ph j := rfl
  rw [e1, e2, add_comm (Magma.Thermo.MuO2.R * T * Real.log 10 * f)]
  split_ifs with hc
  · rw [Option.some.injEq]
    constructor
    · exact fun hv => ⟨⟨hc.1.1, hc.1.2, hc.2⟩, hv.symm⟩
    · exact fun hv => hv.2.symm
  · constructor
    · exact fun hv => absurd hv (by simp)
    · exact fun hv => absurd ⟨⟨hv.1.1, hv.1.2.1⟩, hv.1.2.2⟩ hc

/-- **C76.** A finding: when the first liquid lacks iron, the buffer does not enter what the line search sees. -/
theorem C76_buffered_ironfree (M : Melt nc) (o : ℝ → ℝ → Std) (test : (ph : Phase) → (Fin ph.na → ℝ) → Bool) (T P f f' : ℝ) (l : Phase)
    (x : ℕ → ℝ) (lam : ℝ) (hne : M.fe2 ≠ M.fe3)
    (hfe : iron M.fe2 M.fe3 (oxides (M.toOx l) (l.after 0 x lam)) = 0) (rest : List Phase) (hsol : ∀ ph ∈ rest, ph.liq = false) :
    bufferedSearch M o test T P f l rest x lam = bufferedSearch M o test T P f' l rest x lam := by
  have hset : ∀ f, setRedox M.capped M.fe2 M.fe3 M.coeff T P f (oxides (M.toOx l) (l.after 0 x lam))
      = allFeO M.fe2 M.fe3 (oxides (M.toOx l) (l.after 0 x lam)) := by
    intro f
    unfold setRedox
    simp only [allFeO_fe2 _ _ hne]
    exact if_pos hfe
  have h0 : M.settled T P f x lam 0 l = M.settled T P f' x lam 0 l := by
    funext j
    unfold Melt.settled
    rw [M.set_eq, M.set_eq, hset, hset]
  have hs : ∀ (L : List Phase) (k : ℕ), (∀ ph ∈ L, ph.liq = false) → ∀ ph ∈ L, M.settled T P f x lam k ph = M.settled T P f' x lam k ph := by
    intro L k hL ph hph
    funext j
    unfold Melt.settled
    simp [hL ph hph]
  have sumc : ∀ (g : (ℕ → (ph : Phase) → Fin ph.na → ℝ) → ℕ → Phase → ℝ) (_ : ∀ a b k ph, a k ph = b k ph → g a k ph = g b k ph)
      (L : List Phase) (k : ℕ), (∀ ph ∈ L, ph.liq = false) → sumAt (g (M.settled T P f x lam)) k L = sumAt (g (M.settled T P f' x lam)) k L := by
    intro g hg L
    induction L with
    | nil => intro _ _; rfl
    | cons ph L ih =>
      intro k hL
      simp only [sumAt]
      rw [hg _ _ k ph (hs _ k hL ph List.mem_cons_self), ih _ fun p hp => hL p (List.mem_cons_of_mem _ hp)]
  have okc : ∀ (L : List Phase) (k : ℕ), (∀ ph ∈ L, ph.liq = false) →
      (settledOk test (M.settled T P f x lam) k L ↔ settledOk test (M.settled T P f' x lam) k L) := by
    intro L
    induction L with
    | nil => intro _ _; rfl
    | cons ph L ih =>
      intro k hL
      simp only [settledOk]
      rw [hs _ k hL ph List.mem_cons_self, ih _ fun p hp => hL p (List.mem_cons_of_mem _ hp)]
  have g1 : ∀ a b : ℕ → (ph : Phase) → Fin ph.na → ℝ, ∀ k ph, a k ph = b k ph → gibbsOf T P a k ph = gibbsOf T P b k ph := by
    intro a b k ph e
    rw [gibbsOf_eq, gibbsOf_eq, e]
  have g2 : ∀ a b : ℕ → (ph : Phase) → Fin ph.na → ℝ, ∀ k ph, a k ph = b k ph → oxyOf a k ph = oxyOf b k ph := by
    intro a b k ph e
    unfold oxyOf
    rw [e]
  have hok : settledOk test (M.settled T P f x lam) 0 (l :: rest) ↔ settledOk test (M.settled T P f' x lam) 0 (l :: rest) := by
    simp only [settledOk]
    rw [h0, okc rest _ hsol]
  have hval : ∀ (g : (ℕ → (ph : Phase) → Fin ph.na → ℝ) → ℕ → Phase → ℝ) (_ : ∀ a b k ph, a k ph = b k ph → g a k ph = g b k ph),
      sumAt (g (M.settled T P f x lam)) 0 (l :: rest) = sumAt (g (M.settled T P f' x lam)) 0 (l :: rest) := by
    intro g hg
    simp only [sumAt]
    rw [hg _ _ 0 l h0, sumc g hg rest _ hsol]
  unfold bufferedSearch
  simp only [hval _ g1, hval _ g2, h0]
  by_cases hc : admitted .gibbs test (l :: rest) x lam 0 ∧ settledOk test (M.settled T P f x lam) 0 (l :: rest)
  · rw [if_pos hc, if_pos ⟨hc.1, hok.1 hc.2⟩]
  · rw [if_neg hc, if_neg fun h => hc ⟨h.1, hok.2 h.2⟩]

/-- **C76.** A finding: below the solidus on a buffer the oxygen is counted at a potential that nobody has set. For any two steps that leave different amounts
of oxygen, the content of that memory decides which of them looks better. -/
theorem C76_subsolidus_stale (test : (ph : Phase) → (Fin ph.na → ℝ) → Bool) (sol : ℝ → ℕ → (ph : Phase) → Fin ph.na → ℝ) (T P : ℝ) (L : List Phase)
    (x : ℕ → ℝ) (lam lam' : ℝ) (h : |lam| ≤ 2 ∧ feasible test x lam 0 L) (h' : |lam'| ≤ 2 ∧ feasible test x lam' 0 L)
    (hox : sumAt (fun k ph => ∑ j, ph.o2 j * sol lam k ph j) 0 L ≠ sumAt (fun k ph => ∑ j, ph.o2 j * sol lam' k ph j) 0 L) :
    ∃ stale stale' a a' b b', subsolidusSearch test sol stale T P L x lam = some a ∧ subsolidusSearch test sol stale T P L x lam' = some a' ∧ a < a' ∧
      subsolidusSearch test sol stale' T P L x lam = some b ∧ subsolidusSearch test sol stale' T P L x lam' = some b' ∧ b' < b := by
  have hv : ∀ s, subsolidusSearch test sol s T P L x lam = some (sumAt (gibbsOf T P (sol lam)) 0 L - sumAt (oxyOf (sol lam)) 0 L * s) := by
    intro s
    unfold subsolidusSearch
    rw [if_pos ((admitted_iff test L x lam 0).2 h)]
  have hv' : ∀ s, subsolidusSearch test sol s T P L x lam' = some (sumAt (gibbsOf T P (sol lam')) 0 L - sumAt (oxyOf (sol lam')) 0 L * s) := by
    intro s
    unfold subsolidusSearch
    rw [if_pos ((admitted_iff test L x lam' 0).2 h')]
  have hn : sumAt (oxyOf (sol lam)) 0 L - sumAt (oxyOf (sol lam')) 0 L ≠ 0 := sub_ne_zero.mpr hox
  set g := sumAt (gibbsOf T P (sol lam)) 0 L
  set g' := sumAt (gibbsOf T P (sol lam')) 0 L
  set n := sumAt (oxyOf (sol lam)) 0 L
  set n' := sumAt (oxyOf (sol lam')) 0 L
  refine ⟨(g - g' + 1) / (n - n'), (g - g' - 1) / (n - n'), _, _, _, _, hv _, hv' _, ?_, hv _, hv' _, ?_⟩
  · have : (n - n') * ((g - g' + 1) / (n - n')) = g - g' + 1 := by field_simp
    linarith [sub_mul n n' ((g - g' + 1) / (n - n'))]
  · have : (n - n') * ((g - g' - 1) / (n - n')) = g - g' - 1 := by field_simp
    linarith [sub_mul n n' ((g - g' - 1) / (n - n'))]

end

end Magma.Engine.System
