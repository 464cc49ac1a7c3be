import Verif.Engine.AddDropProps
import Verif.Num.Binary64

/-!
Model of assimilation, /repo/sources/silmin.c 2119-2184 (batch build), and property C12.

Simplifications: `double` is an ordered field (except in `massLoop64`); oxygen book-keeping and the
temperature/pressure corrections after the increment are not modelled.
-/

namespace Magma.Engine

variable {nc nlc : ℕ} {K : Type} [Field K] [LinearOrder K]

/-- The assimilant: `dspAssimMass`, `dspAssimInc`, `assimTD.{h,s,v}`, solid assimilants (index of the
phase in the table, `assimComp`), liquid assimilants (`assimComp[npc+i]`, one per copy). -/
structure Assimilant (nc nlc : ℕ) (K : Type) where
  mass : K
  inc : ℤ
  h : K
  s : K
  v : K
  solids : List (ℕ × Inst K)
  liquids : List (Fin nlc → K)

/-- Assimilation state: `assimMass`, `assimInc`, reference enthalpy, entropy and volume, assemblage. -/
structure AState (nc nlc : ℕ) (K : Type) where
  mass : K
  inc : ℕ
  refH : K
  refS : K
  refV : K
  sys : Sys nc nlc K

/-- Constraint switches `isenthalpic`, `isentropic`, `isochoric`. -/
structure ConFlags where
  h : Bool
  s : Bool
  v : Bool

/-- silmin.c 2136, 2146: assimilating into the first liquid. -/
def addFirst (d : Fin nlc → K) : List (Fin nlc → K) → List (Fin nlc → K)
  | [] => [d]
  | l :: ls => (fun j => l j + d j) :: ls

/-- silmin.c 2137-2140, 2147-2150: without liquid the material is added to the first copy of the
solid, which is created if needed. For a solution only the end-member entries are increased, not the
total. -/
def addHeld (f : K) (x : Inst K) (q : SState nc nlc K) : SState nc nlc K :=
  let bump (y : Inst K) : Inst K :=
    if q.ph.ems = [] then { y with tot := y.tot + f * x.tot }
    else { y with comps := List.zipWith (fun c d => c + f * d) y.comps x.comps }
  match q.insts with
  | [] => { q with insts := [bump ⟨0, q.ph.ems.map fun _ => 0⟩] }
  | y :: ys => { q with insts := bump y :: ys }

/-- silmin.c 2134-2153, one solid assimilant. -/
def assimSolid (f : K) (hasLiquid : Bool) (s : Sys nc nlc K) (a : ℕ × Inst K) : Sys nc nlc K :=
  match s.solids[a.1]? with
  | none => s
  | some q =>
    let bulk' : Fin nc → K := fun o => s.bulk o + f * soxide q.ph o a.2
    if hasLiquid then
      { s with bulk := bulk', liquids := addFirst (fun j => f * liqOf q.ph a.2 j) s.liquids }
    else { s with bulk := bulk', solids := s.solids.set a.1 (addHeld f a.2 q) }

/-- silmin.c 2155-2165, one liquid assimilant. -/
def assimLiquid (tb : Tables nc nlc K) (f : K) (s : Sys nc nlc K) (l : Fin nlc → K) : Sys nc nlc K :=
  { s with
    bulk := fun o => s.bulk o + ∑ j, f * l j * tb.liqToOx j o
    liquids := addFirst (fun j => f * l j) s.liquids }

/-- silmin.c 2120: is there something left to assimilate? -/
def assimMore (A : Assimilant nc nlc K) (st : AState nc nlc K) : Bool := decide (st.mass < A.mass)

/-- silmin.c 2119-2165: one increment (nothing happens when all has been assimilated). -/
def assimStep (tb : Tables nc nlc K) (A : Assimilant nc nlc K) (fl : ConFlags)
    (hasLiquid : Sys nc nlc K → Bool) (st : AState nc nlc K) : AState nc nlc K :=
  if assimMore A st then
    let f : K := 1 / (A.inc : K)
    let s1 := A.solids.foldl (assimSolid f (hasLiquid st.sys)) st.sys
    let s2 := A.liquids.foldl (assimLiquid tb f) s1
    { mass := st.mass + f * A.mass
      inc := st.inc + 1
      refH := if fl.h ∧ st.refH ≠ 0 then st.refH + f * A.h else st.refH
      refS := if fl.s ∧ st.refS ≠ 0 then st.refS + f * A.s else st.refS
      refV := if fl.v ∧ st.refV ≠ 0 then st.refV + f * A.v else st.refV
      sys := s2 }
  else st

/-- The run: after each equilibration (arbitrary, but it does not touch the assimilation counters or
the bulk) one increment. -/
def assimRun (tb : Tables nc nlc K) (A : Assimilant nc nlc K) (fl : ConFlags)
    (hasLiquid : Sys nc nlc K → Bool) (equil : ℕ → Sys nc nlc K → Sys nc nlc K)
    (st : AState nc nlc K) : ℕ → AState nc nlc K
  | 0 => st
  | n + 1 =>
    let t := assimRun tb A fl hasLiquid equil st n
    assimStep tb A fl hasLiquid { t with sys := equil n t.sys }

/-! ### Specification -/

/-- Moles of oxide `o` in the whole assimilant. `table` is the phase table. -/
def assimilantOxide (tb : Tables nc nlc K) (table : List (SPhase nc nlc K)) (A : Assimilant nc nlc K)
    (o : Fin nc) : K :=
  (A.solids.map fun a => match table[a.1]? with
    | none => 0
    | some p => soxide p o a.2).sum + liquidsOxide tb A.liquids o

/-- The phase table behind an assemblage. -/
def tableOf (s : Sys nc nlc K) : List (SPhase nc nlc K) := s.solids.map SState.ph

/-- Every assimilated phase has consistent stoichiometry and one entry per end-member, and so has
its first copy. -/
def AssimOk (tb : Tables nc nlc K) (A : Assimilant nc nlc K) (s : Sys nc nlc K) : Prop :=
  ∀ a ∈ A.solids, ∀ q, s.solids[a.1]? = some q →
    PhaseOk tb q.ph ∧ a.2.comps.length = q.ph.ems.length ∧ CopiesOk q

/-! ### Proofs -/

theorem addFirst_oxide (tb : Tables nc nlc K) (d : Fin nlc → K) (ls : List (Fin nlc → K)) (o : Fin nc) :
    liquidsOxide tb (addFirst d ls) o = liquidsOxide tb ls o + ∑ j, d j * tb.liqToOx j o := by
  cases ls with
  | nil => simp [addFirst, liquidsOxide]
  | cons l ls =>
    simp only [addFirst, liquidsOxide, List.map_cons, List.sum_cons, add_mul, Finset.sum_add_distrib]
    ring

theorem zip_bump (rs : List (SRow nc nlc K)) (f : K) (o : Fin nc) : ∀ cs ds : List K,
    cs.length = rs.length → ds.length = rs.length →
    (List.zipWith (fun r c => c * r.solToOx o) rs (List.zipWith (fun c d => c + f * d) cs ds)).sum =
      (List.zipWith (fun r c => c * r.solToOx o) rs cs).sum +
      f * (List.zipWith (fun r c => c * r.solToOx o) rs ds).sum := by
  induction rs with
  | nil => intro cs ds _ _; simp
  | cons r rs ih =>
    intro cs ds hc hd
    cases cs with
    | nil => simp at hc
    | cons c cs =>
      cases ds with
      | nil => simp at hd
      | cons d ds =>
        simp only [List.zipWith_cons_cons, List.sum_cons]
        rw [ih cs ds (by simpa using hc) (by simpa using hd)]
        ring

theorem addHeld_oxide (f : K) (x : Inst K) (q : SState nc nlc K) (hx : x.comps.length = q.ph.ems.length)
    (hq : CopiesOk q) (o : Fin nc) :
    ((addHeld f x q).insts.map (soxide (addHeld f x q).ph o)).sum =
      (q.insts.map (soxide q.ph o)).sum + f * soxide q.ph o x := by
  have hz : ∀ rs : List (SRow nc nlc K),
      (List.zipWith (fun r c => c * r.solToOx o) rs (rs.map fun _ => (0 : K))).sum = 0 := by
    intro rs
    induction rs with
    | nil => rfl
    | cons r rs ih => simp only [List.map_cons, List.zipWith_cons_cons, List.sum_cons, ih]; ring
  have hb : ∀ y : Inst K, y.comps.length = q.ph.ems.length →
      soxide q.ph o (if q.ph.ems = [] then { y with tot := y.tot + f * x.tot }
        else { y with comps := List.zipWith (fun c d => c + f * d) y.comps x.comps }) =
      soxide q.ph o y + f * soxide q.ph o x := by
    intro y hy
    by_cases he : q.ph.ems = []
    · simp only [he, if_true, soxide]; ring
    · simp only [he, if_false, soxide]
      exact zip_bump q.ph.ems f o y.comps x.comps hy hx
  unfold addHeld
  dsimp only
  split
  · rename_i hi
    rw [hi]
    have hb0 := hb ⟨0, q.ph.ems.map fun _ => 0⟩ (by simp)
    simp only [List.map_cons, List.map_nil, List.sum_cons, List.sum_nil, add_zero]
    refine Eq.trans hb0 ?_
    have : soxide q.ph o (⟨0, q.ph.ems.map fun _ => 0⟩ : Inst K) = 0 := by
      unfold soxide
      split
      · simp
      · exact hz _
    rw [this, zero_add]
  · rename_i y ys hi
    rw [hi]
    simp only [List.map_cons, List.sum_cons]
    rw [hb y (hq y (by rw [hi]; simp))]
    ring

theorem addHeld_ph (f : K) (x : Inst K) (q : SState nc nlc K) : (addHeld f x q).ph = q.ph := by
  unfold addHeld; dsimp only; split <;> rfl

theorem addHeld_copies (f : K) (x : Inst K) (q : SState nc nlc K)
    (hx : x.comps.length = q.ph.ems.length) (hq : CopiesOk q) : CopiesOk (addHeld f x q) := by
  have hb : ∀ y : Inst K, y.comps.length = q.ph.ems.length →
      (if q.ph.ems = [] then ({ y with tot := y.tot + f * x.tot } : Inst K)
        else { y with comps := List.zipWith (fun c d => c + f * d) y.comps x.comps }).comps.length =
      q.ph.ems.length := by
    intro y hy
    split
    · exact hy
    · simp [hy, hx]
  intro z hz
  rw [addHeld_ph]
  unfold addHeld at hz
  dsimp only at hz
  split at hz
  · simp only [List.mem_singleton] at hz
    subst hz
    exact hb ⟨0, q.ph.ems.map fun _ => 0⟩ (by simp only [List.length_map])
  · rename_i y ys hi
    simp only [List.mem_cons] at hz
    rcases hz with hz | hz
    · subst hz; exact hb y (hq y (by rw [hi]; simp))
    · exact hq z (by rw [hi]; simp [hz])

/-- One solid assimilant: bulk and assemblage gain the same. -/
theorem assimSolid_spec (tb : Tables nc nlc K) (f : K) (hl : Bool) (s : Sys nc nlc K) (a : ℕ × Inst K)
    (hok : ∀ q, s.solids[a.1]? = some q →
      PhaseOk tb q.ph ∧ a.2.comps.length = q.ph.ems.length ∧ CopiesOk q) (o : Fin nc) :
    let g := f * (match (tableOf s)[a.1]? with
      | none => 0
      | some p => soxide p o a.2)
    (assimSolid f hl s a).bulk o = s.bulk o + g ∧
    total tb (assimSolid f hl s a) o = total tb s o + g ∧
    tableOf (assimSolid f hl s a) = tableOf s := by
  unfold assimSolid
  cases hq : s.solids[a.1]? with
  | none =>
    have : (tableOf s)[a.1]? = none := by simp [tableOf, hq]
    simp [this]
  | some q =>
    have ht : (tableOf s)[a.1]? = some q.ph := by simp [tableOf, hq]
    obtain ⟨h1, h2, h3⟩ := hok q hq
    simp only [ht]
    cases hl with
    | true =>
      simp only [if_true, total]
      refine ⟨trivial, ?_, rfl⟩
      rw [addFirst_oxide]
      have : ∑ j, f * liqOf q.ph a.2 j * tb.liqToOx j o = f * soxide q.ph o a.2 := by
        rw [← liqOf_oxide tb q.ph h1 a.2 o, Finset.mul_sum]
        exact Finset.sum_congr rfl fun _ _ => by ring
      rw [this]; ring
    | false =>
      simp only [Bool.false_eq_true, if_false, total]
      refine ⟨trivial, ?_, ?_⟩
      · rw [solidsOxide_set _ _ q _ hq, addHeld_oxide f a.2 q h2 h3]; ring
      · simp only [tableOf, List.map_set, addHeld_ph]
        apply List.ext_getElem?
        intro i
        rw [List.getElem?_set]
        split
        · rename_i h; subst h
          split
          · rw [List.getElem?_map, hq]; rfl
          · rename_i hlt
            have : s.solids[a.1]? = none := by simpa using hlt
            rw [this] at hq; simp at hq
        · rfl

theorem assimSolid_copies (tb : Tables nc nlc K) (f : K) (hl : Bool) (s : Sys nc nlc K)
    (a b : ℕ × Inst K)
    (hokb : ∀ q, s.solids[b.1]? = some q →
      PhaseOk tb q.ph ∧ b.2.comps.length = q.ph.ems.length ∧ CopiesOk q)
    (hoka : ∀ q, s.solids[a.1]? = some q →
      PhaseOk tb q.ph ∧ a.2.comps.length = q.ph.ems.length ∧ CopiesOk q) :
    ∀ q, (assimSolid f hl s b).solids[a.1]? = some q →
      PhaseOk tb q.ph ∧ a.2.comps.length = q.ph.ems.length ∧ CopiesOk q := by
  intro q hq
  unfold assimSolid at hq
  cases hb : s.solids[b.1]? with
  | none => rw [hb] at hq; exact hoka q hq
  | some qb =>
    rw [hb] at hq
    cases hl with
    | true => exact hoka q hq
    | false =>
      simp only [Bool.false_eq_true, if_false] at hq
      rw [List.getElem?_set] at hq
      split at hq
      · rename_i hab
        split at hq
        · simp only [Option.some.injEq] at hq
          subst hq
          rw [addHeld_ph]
          have h1 := hokb qb hb
          have h2 := hoka qb (by rw [← hab]; exact hb)
          exact ⟨h2.1, h2.2.1, addHeld_copies f b.2 qb h1.2.1 h1.2.2⟩
        · simp at hq
      · exact hoka q hq

theorem assimSolids_spec (tb : Tables nc nlc K) (f : K) (hl : Bool) :
    ∀ (as : List (ℕ × Inst K)) (s : Sys nc nlc K),
    (∀ a ∈ as, ∀ q, s.solids[a.1]? = some q →
      PhaseOk tb q.ph ∧ a.2.comps.length = q.ph.ems.length ∧ CopiesOk q) → ∀ o,
    let g := f * (as.map fun a => match (tableOf s)[a.1]? with
      | none => 0
      | some p => soxide p o a.2).sum
    (as.foldl (assimSolid f hl) s).bulk o = s.bulk o + g ∧
    total tb (as.foldl (assimSolid f hl) s) o = total tb s o + g ∧
    tableOf (as.foldl (assimSolid f hl) s) = tableOf s := by
  intro as
  induction as with
  | nil => intro s _ o; simp
  | cons a as ih =>
    intro s hok o
    have h1 := assimSolid_spec tb f hl s a (hok a (by simp)) o
    have h2 := ih (assimSolid f hl s a) (fun b hb =>
      assimSolid_copies tb f hl s b a (hok a (by simp)) (hok b (by simp [hb]))) o
    simp only [List.foldl_cons, List.map_cons, List.sum_cons]
    simp only [h1.2.2] at h2
    refine ⟨?_, ?_, h2.2.2⟩
    · rw [h2.1, h1.1]; ring
    · rw [h2.2.1, h1.2.1]; ring

theorem assimLiquids_spec (tb : Tables nc nlc K) (f : K) :
    ∀ (ls : List (Fin nlc → K)) (s : Sys nc nlc K) (o : Fin nc),
    (ls.foldl (assimLiquid tb f) s).bulk o = s.bulk o + f * liquidsOxide tb ls o ∧
    total tb (ls.foldl (assimLiquid tb f) s) o = total tb s o + f * liquidsOxide tb ls o ∧
    tableOf (ls.foldl (assimLiquid tb f) s) = tableOf s := by
  intro ls
  induction ls with
  | nil => intro s o; simp [liquidsOxide]
  | cons l ls ih =>
    intro s o
    obtain ⟨h1, h2, h3⟩ := ih (assimLiquid tb f s l) o
    have e : ∑ j, f * l j * tb.liqToOx j o = f * ∑ j, l j * tb.liqToOx j o := by
      rw [Finset.mul_sum]; exact Finset.sum_congr rfl fun _ _ => by ring
    simp only [List.foldl_cons]
    refine ⟨?_, ?_, h3⟩
    · rw [h1, liquidsOxide_cons]
      simp only [assimLiquid]
      rw [e]; ring
    · rw [h2, liquidsOxide_cons]
      simp only [total, assimLiquid]
      rw [addFirst_oxide, e]; ring

/-- C12, one increment. It adds the same amount `1/n` of each oxide of the assimilant to the bulk
composition and to the assemblage (liquid or solids), so the mass balance is kept. -/
theorem C12_increment_balanced (tb : Tables nc nlc K) (A : Assimilant nc nlc K) (fl : ConFlags)
    (hasLiquid : Sys nc nlc K → Bool) (st : AState nc nlc K) (hok : AssimOk tb A st.sys)
    (hm : st.mass < A.mass) (o : Fin nc) :
    (assimStep tb A fl hasLiquid st).sys.bulk o =
      st.sys.bulk o + assimilantOxide tb (tableOf st.sys) A o / A.inc ∧
    total tb (assimStep tb A fl hasLiquid st).sys o =
      total tb st.sys o + assimilantOxide tb (tableOf st.sys) A o / A.inc := by
  have hs := assimSolids_spec tb (1 / (A.inc : K)) (hasLiquid st.sys) A.solids st.sys hok o
  have hl := assimLiquids_spec tb (1 / (A.inc : K)) A.liquids
    (A.solids.foldl (assimSolid (1 / (A.inc : K)) (hasLiquid st.sys)) st.sys) o
  unfold assimStep
  rw [if_pos (by simpa [assimMore] using hm)]
  dsimp only
  constructor
  · rw [hl.1, hs.1]; unfold assimilantOxide; ring
  · rw [hl.2.1, hs.2.1]; unfold assimilantOxide; ring

variable [IsStrictOrderedRing K]

/-- C12. For a positive mass `M` and `n ≥ 1` increments, in exact arithmetic: after `m` rounds
`min m n` increments of mass `M/n` have been added, so the assimilated mass never exceeds `M` and is exactly `M`
after `n` rounds, when assimilation stops. -/
theorem C12_exact_mass (tb : Tables nc nlc K) (A : Assimilant nc nlc K) (fl : ConFlags)
    (hasLiquid : Sys nc nlc K → Bool) (equil : ℕ → Sys nc nlc K → Sys nc nlc K)
    (st : AState nc nlc K) (n : ℕ) (hn : 0 < n) (hA : A.inc = n) (hM : 0 < A.mass)
    (h0 : st.mass = 0) (h1 : st.inc = 0) (m : ℕ) :
    let r := assimRun tb A fl hasLiquid equil st m
    r.mass = (min m n : ℕ) * (A.mass / n) ∧ r.inc = min m n ∧ r.mass ≤ A.mass ∧
    (assimMore A r = true ↔ m < n) ∧ (n ≤ m → r.mass = A.mass) := by
  have hnK : (0 : K) < n := by exact_mod_cast hn
  have hne : (n : K) ≠ 0 := hnK.ne'
  have hcast : ((A.inc : ℤ) : K) = n := by rw [hA]; simp
  have more : ∀ t : AState nc nlc K, ∀ k : ℕ, k ≤ n → t.mass = (k : K) * (A.mass / n) →
      (assimMore A t = true ↔ k < n) := by
    intro t k hk ht
    simp only [assimMore, decide_eq_true_eq, ht]
    constructor
    · intro h
      by_contra hc
      have : k = n := le_antisymm hk (not_lt.mp hc)
      subst this
      rw [mul_div_cancel₀ _ hne] at h
      exact lt_irrefl _ h
    · intro h
      have h2 : (k : K) < n := by exact_mod_cast h
      have h3 : (k : K) * (A.mass / n) < n * (A.mass / n) :=
        mul_lt_mul_of_pos_right h2 (div_pos hM hnK)
      rwa [mul_div_cancel₀ _ hne] at h3
  have key : (assimRun tb A fl hasLiquid equil st m).mass = (min m n : ℕ) * (A.mass / n) ∧
      (assimRun tb A fl hasLiquid equil st m).inc = min m n := by
    induction m with
    | zero => simp [assimRun, h0, h1]
    | succ m ih =>
      have hmore := more { assimRun tb A fl hasLiquid equil st m with
        sys := equil m (assimRun tb A fl hasLiquid equil st m).sys } (min m n) (min_le_right _ _) ih.1
      rw [assimRun]
      unfold assimStep
      by_cases hc : min m n < n
      · rw [if_pos (hmore.mpr hc)]
        dsimp only
        have e : min (m + 1) n = min m n + 1 := by omega
        rw [ih.1, ih.2, e, hcast]
        refine ⟨?_, rfl⟩
        push_cast; ring
      · rw [if_neg (fun h => hc (hmore.mp h))]
        dsimp only
        have e : min (m + 1) n = min m n := by omega
        rw [e]; exact ih
  have hmm := more _ (min m n) (min_le_right m n) key.1
  refine ⟨key.1, key.2, ?_, ?_, ?_⟩
  · rw [key.1]
    have : ((min m n : ℕ) : K) ≤ n := by exact_mod_cast min_le_right m n
    calc ((min m n : ℕ) : K) * (A.mass / n) ≤ n * (A.mass / n) :=
          mul_le_mul_of_nonneg_right this (div_pos hM hnK).le
      _ = A.mass := mul_div_cancel₀ _ hne
  · rw [hmm]; omega
  · intro h
    rw [key.1, min_eq_right h, mul_div_cancel₀ _ hne]

theorem tableOf_set (s : Sys nc nlc K) (i : ℕ) (q r : SState nc nlc K) (hq : s.solids[i]? = some q)
    (hr : r.ph = q.ph) (b : Fin nc → K) : tableOf { s with bulk := b, solids := s.solids.set i r } = tableOf s := by
  simp only [tableOf, List.map_set, hr]
  apply List.ext_getElem?
  intro k
  rw [List.getElem?_set]
  split
  · rename_i h; subst h
    split
    · rw [List.getElem?_map, hq]; rfl
    · rename_i hlt
      have : s.solids[i]? = none := by simpa using hlt
      rw [this] at hq; simp at hq
  · rfl

theorem assimSolids_ok (tb : Tables nc nlc K) (f : K) (hl : Bool) (A : Assimilant nc nlc K) :
    ∀ (as : List (ℕ × Inst K)) (s : Sys nc nlc K), (∀ a ∈ as, a ∈ A.solids) → AssimOk tb A s →
    AssimOk tb A (as.foldl (assimSolid f hl) s) := by
  intro as
  induction as with
  | nil => intro s _ h; exact h
  | cons a as ih =>
    intro s hm h
    rw [List.foldl_cons]
    refine ih _ (fun b hb => hm b (by simp [hb])) fun b hb => ?_
    exact assimSolid_copies tb f hl s b a (h a (hm a (by simp))) (h b hb)

theorem assimLiquids_solids (tb : Tables nc nlc K) (f : K) : ∀ (ls : List (Fin nlc → K)) (s : Sys nc nlc K),
    (ls.foldl (assimLiquid tb f) s).solids = s.solids := by
  intro ls
  induction ls with
  | nil => intro s; rfl
  | cons l ls ih => intro s; rw [List.foldl_cons, ih]; rfl

theorem assimStep_ok (tb : Tables nc nlc K) (A : Assimilant nc nlc K) (fl : ConFlags)
    (hasLiquid : Sys nc nlc K → Bool) (st : AState nc nlc K) (h : AssimOk tb A st.sys) :
    AssimOk tb A (assimStep tb A fl hasLiquid st).sys ∧
    tableOf (assimStep tb A fl hasLiquid st).sys = tableOf st.sys := by
  unfold assimStep
  split
  · dsimp only
    constructor
    · intro a ha q hq
      rw [assimLiquids_solids] at hq
      exact assimSolids_ok tb _ _ A A.solids st.sys (fun _ h => h) h a ha q hq
    · have e : ∀ s : Sys nc nlc K, tableOf (A.liquids.foldl (assimLiquid tb (1 / (A.inc : K))) s) = tableOf s := by
        intro s; unfold tableOf; rw [assimLiquids_solids]
      rw [e]
      clear e
      have : ∀ (as : List (ℕ × Inst K)) (s : Sys nc nlc K),
          tableOf (as.foldl (assimSolid (1 / (A.inc : K)) (hasLiquid st.sys)) s) = tableOf s := by
        intro as
        induction as with
        | nil => intro s; rfl
        | cons a as ih =>
          intro s
          rw [List.foldl_cons, ih]
          unfold assimSolid
          split
          · rfl
          · rename_i q hq
            dsimp only
            split
            · rfl
            · exact tableOf_set s a.1 q _ hq (addHeld_ph _ _ _) _
      exact this _ _
  · exact ⟨h, rfl⟩

/-- C12, the whole run. Between the increments the equilibration may rearrange the assemblage in any
way that conserves the bulk, the oxide totals and the layout of the phases. After `m` rounds the bulk composition and
the assemblage have each received exactly `min m n` times one `n`-th of every oxide of the assimilant: all of it, and no
more, once `m ≥ n`. -/
theorem C12_whole_run_balanced (tb : Tables nc nlc K) (A : Assimilant nc nlc K) (fl : ConFlags)
    (hasLiquid : Sys nc nlc K → Bool) (equil : ℕ → Sys nc nlc K → Sys nc nlc K)
    (hE : ∀ k s, AssimOk tb A s → AssimOk tb A (equil k s) ∧ (equil k s).bulk = s.bulk ∧
      (∀ o, total tb (equil k s) o = total tb s o) ∧ tableOf (equil k s) = tableOf s)
    (st : AState nc nlc K) (hok : AssimOk tb A st.sys)
    (n : ℕ) (hn : 0 < n) (hA : A.inc = n) (hM : 0 < A.mass)
    (h0 : st.mass = 0) (h1 : st.inc = 0) (m : ℕ) (o : Fin nc) :
    let r := assimRun tb A fl hasLiquid equil st m
    r.sys.bulk o = st.sys.bulk o + (min m n : ℕ) * (assimilantOxide tb (tableOf st.sys) A o / n) ∧
    total tb r.sys o = total tb st.sys o + (min m n : ℕ) * (assimilantOxide tb (tableOf st.sys) A o / n) := by
  have hcast : ((A.inc : ℤ) : K) = n := by rw [hA]; simp
  have key : ∀ m, let r := assimRun tb A fl hasLiquid equil st m
      AssimOk tb A r.sys ∧ tableOf r.sys = tableOf st.sys ∧
      r.sys.bulk o = st.sys.bulk o + (min m n : ℕ) * (assimilantOxide tb (tableOf st.sys) A o / n) ∧
      total tb r.sys o = total tb st.sys o +
        (min m n : ℕ) * (assimilantOxide tb (tableOf st.sys) A o / n) := by
    intro m
    induction m with
    | zero => simpa [assimRun] using hok
    | succ m ih =>
      obtain ⟨i1, i2, i3, i4⟩ := ih
      have hb := (C12_exact_mass tb A fl hasLiquid equil st n hn hA hM h0 h1 m).2.2.2.1
      obtain ⟨e1, e2, e3, e4⟩ := hE m _ i1
      have ok := assimStep_ok tb A fl hasLiquid { assimRun tb A fl hasLiquid equil st m with
          sys := equil m (assimRun tb A fl hasLiquid equil st m).sys } e1
      dsimp only
      rw [assimRun]
      dsimp only at ok ⊢
      refine ⟨ok.1, by rw [ok.2, e4, i2], ?_⟩
      by_cases hc : m < n
      · have hm : (assimRun tb A fl hasLiquid equil st m).mass < A.mass := by
          simpa [assimMore] using hb.mpr hc
        have hbal := C12_increment_balanced tb A fl hasLiquid { assimRun tb A fl hasLiquid equil st m with
          sys := equil m (assimRun tb A fl hasLiquid equil st m).sys } e1 hm o
        dsimp only at hbal
        rw [e4, i2, e2, e3, i3, i4, hcast, min_eq_left hc.le] at hbal
        rw [hbal.1, hbal.2, min_eq_left (show m + 1 ≤ n from hc)]
        push_cast
        constructor <;> ring
      · have : ¬ assimMore A { assimRun tb A fl hasLiquid equil st m with
            sys := equil m (assimRun tb A fl hasLiquid equil st m).sys } = true := fun h => hc (hb.mp h)
        have hs : (assimStep tb A fl hasLiquid { assimRun tb A fl hasLiquid equil st m with
            sys := equil m (assimRun tb A fl hasLiquid equil st m).sys }).sys =
            equil m (assimRun tb A fl hasLiquid equil st m).sys := by
          unfold assimStep
          rw [if_neg this]
        rw [hs, e2, e3, i3, i4]
        have : min (m + 1) n = min m n := by omega
        rw [this]
        exact ⟨rfl, rfl⟩
  exact (key m).2.2

/-- C12, the reference enthalpy of an isenthalpic run: as long as it does not become exactly 0, after `m`
rounds it has grown by `min m n` times one `n`-th of the assimilant's enthalpy. -/
theorem C12_reference_enthalpy (tb : Tables nc nlc K) (A : Assimilant nc nlc K) (fl : ConFlags)
    (hasLiquid : Sys nc nlc K → Bool) (equil : ℕ → Sys nc nlc K → Sys nc nlc K)
    (st : AState nc nlc K) (n : ℕ) (hn : 0 < n) (hA : A.inc = n) (hM : 0 < A.mass)
    (h0 : st.mass = 0) (h1 : st.inc = 0) (hfl : fl.h = true)
    (hz : ∀ k : ℕ, k < n → st.refH + k * (A.h / n) ≠ 0) (m : ℕ) :
    (assimRun tb A fl hasLiquid equil st m).refH = st.refH + (min m n : ℕ) * (A.h / n) := by
  have hcast : ((A.inc : ℤ) : K) = n := by rw [hA]; simp
  induction m with
  | zero => simp [assimRun]
  | succ m ih =>
    have hb := (C12_exact_mass tb A fl hasLiquid equil st n hn hA hM h0 h1 m).2.2.2.1
    rw [assimRun]
    unfold assimStep
    by_cases hc : m < n
    · have : assimMore A { assimRun tb A fl hasLiquid equil st m with
          sys := equil m (assimRun tb A fl hasLiquid equil st m).sys } = true := hb.mpr hc
      rw [if_pos this]
      dsimp only
      have e : min m n = m := min_eq_left hc.le
      have e2 : min (m + 1) n = m + 1 := min_eq_left hc
      rw [e] at ih
      rw [if_pos ⟨hfl, by rw [ih]; exact hz m hc⟩, ih, e2, hcast]
      push_cast; ring
    · have : ¬ assimMore A { assimRun tb A fl hasLiquid equil st m with
          sys := equil m (assimRun tb A fl hasLiquid equil st m).sys } = true := fun h => hc (hb.mp h)
      rw [if_neg this]
      dsimp only
      rw [ih]
      have : min (m + 1) n = min m n := by omega
      rw [this]

/-- C12, the reference entropy of an isentropic run: as long as it does not become exactly 0, after `m`
rounds it has grown by `min m n` times one `n`-th of the assimilant's entropy. -/
theorem C12_reference_entropy (tb : Tables nc nlc K) (A : Assimilant nc nlc K) (fl : ConFlags)
    (hasLiquid : Sys nc nlc K → Bool) (equil : ℕ → Sys nc nlc K → Sys nc nlc K)
    (st : AState nc nlc K) (n : ℕ) (hn : 0 < n) (hA : A.inc = n) (hM : 0 < A.mass)
    (h0 : st.mass = 0) (h1 : st.inc = 0) (hfl : fl.s = true)
    (hz : ∀ k : ℕ, k < n → st.refS + k * (A.s / n) ≠ 0) (m : ℕ) :
    (assimRun tb A fl hasLiquid equil st m).refS = st.refS + (min m n : ℕ) * (A.s / n) := by
  have hcast : ((A.inc : ℤ) : K) = n := by rw [hA]; simp
  induction m with
  | zero => simp [assimRun]
  | succ m ih =>
    have hb := (C12_exact_mass tb A fl hasLiquid equil st n hn hA hM h0 h1 m).2.2.2.1
    rw [assimRun]
    unfold assimStep
    by_cases hc : m < n
    · have : assimMore A { assimRun tb A fl hasLiquid equil st m with
          sys := equil m (assimRun tb A fl hasLiquid equil st m).sys } = true := hb.mpr hc
      rw [if_pos this]
      dsimp only
      have e : min m n = m := min_eq_left hc.le
      have e2 : min (m + 1) n = m + 1 := min_eq_left hc
      rw [e] at ih
      rw [if_pos ⟨hfl, by rw [ih]; exact hz m hc⟩, ih, e2, hcast]
      push_cast; ring
    · have : ¬ assimMore A { assimRun tb A fl hasLiquid equil st m with
          sys := equil m (assimRun tb A fl hasLiquid equil st m).sys } = true := fun h => hc (hb.mp h)
      rw [if_neg this]
      dsimp only
      rw [ih]
      have : min (m + 1) n = min m n := by omega
      rw [this]

/-- C12, the reference volume of an isochoric run: as long as it does not become exactly 0, after `m`
rounds it has grown by `min m n` times one `n`-th of the assimilant's volume. -/
theorem C12_reference_volume (tb : Tables nc nlc K) (A : Assimilant nc nlc K) (fl : ConFlags)
    (hasLiquid : Sys nc nlc K → Bool) (equil : ℕ → Sys nc nlc K → Sys nc nlc K)
    (st : AState nc nlc K) (n : ℕ) (hn : 0 < n) (hA : A.inc = n) (hM : 0 < A.mass)
    (h0 : st.mass = 0) (h1 : st.inc = 0) (hfl : fl.v = true)
    (hz : ∀ k : ℕ, k < n → st.refV + k * (A.v / n) ≠ 0) (m : ℕ) :
    (assimRun tb A fl hasLiquid equil st m).refV = st.refV + (min m n : ℕ) * (A.v / n) := by
  have hcast : ((A.inc : ℤ) : K) = n := by rw [hA]; simp
  induction m with
  | zero => simp [assimRun]
  | succ m ih =>
    have hb := (C12_exact_mass tb A fl hasLiquid equil st n hn hA hM h0 h1 m).2.2.2.1
    rw [assimRun]
    unfold assimStep
    by_cases hc : m < n
    · have : assimMore A { assimRun tb A fl hasLiquid equil st m with
          sys := equil m (assimRun tb A fl hasLiquid equil st m).sys } = true := hb.mpr hc
      rw [if_pos this]
      dsimp only
      have e : min m n = m := min_eq_left hc.le
      have e2 : min (m + 1) n = m + 1 := min_eq_left hc
      rw [e] at ih
      rw [if_pos ⟨hfl, by rw [ih]; exact hz m hc⟩, ih, e2, hcast]
      push_cast; ring
    · have : ¬ assimMore A { assimRun tb A fl hasLiquid equil st m with
          sys := equil m (assimRun tb A fl hasLiquid equil st m).sys } = true := fun h => hc (hb.mp h)
      rw [if_neg this]
      dsimp only
      rw [ih]
      have : min (m + 1) n = min m n := by omega
      rw [this]

/-- C12: a negative number of increments never ends: mass is taken out for ever. -/
theorem C12_negative_increments (tb : Tables nc nlc K) (A : Assimilant nc nlc K) (fl : ConFlags)
    (hasLiquid : Sys nc nlc K → Bool) (equil : ℕ → Sys nc nlc K → Sys nc nlc K)
    (st : AState nc nlc K) (hA : A.inc < 0) (hM : 0 < A.mass) (h0 : st.mass = 0) (m : ℕ) :
    assimMore A (assimRun tb A fl hasLiquid equil st m) = true ∧
    (assimRun tb A fl hasLiquid equil st m).mass = m * (A.mass / A.inc) := by
  have hneg : (A.inc : K) < 0 := by exact_mod_cast hA
  have hq : A.mass / A.inc < 0 := div_neg_of_pos_of_neg hM hneg
  have more : ∀ t : AState nc nlc K, ∀ k : ℕ, t.mass = (k : K) * (A.mass / A.inc) →
      assimMore A t = true := by
    intro t k ht
    simp only [assimMore, decide_eq_true_eq, ht]
    have : (k : K) * (A.mass / A.inc) ≤ 0 := mul_nonpos_of_nonneg_of_nonpos (Nat.cast_nonneg _) hq.le
    linarith
  have key : (assimRun tb A fl hasLiquid equil st m).mass = m * (A.mass / A.inc) := by
    induction m with
    | zero => simp [assimRun, h0]
    | succ m ih =>
      rw [assimRun]
      unfold assimStep
      have : assimMore A { assimRun tb A fl hasLiquid equil st m with
          sys := equil m (assimRun tb A fl hasLiquid equil st m).sys } = true := more _ m ih
      rw [if_pos this]
      dsimp only
      rw [ih]; push_cast; ring
  exact ⟨more _ m key, key⟩

/-- C12, the defect without liquid: a solution phase that is not yet present receives its end-members but
its total stays 0, so the phase's total is not the sum of its end-members. -/
theorem C12_total_not_updated (f : K) (x : Inst K) (q : SState nc nlc K) (hems : q.ph.ems ≠ [])
    (hq : q.insts = []) (hx : x.comps.length = q.ph.ems.length) :
    ∃ y, (addHeld f x q).insts = [y] ∧ y.tot = 0 ∧ y.comps.sum = f * x.comps.sum := by
  refine ⟨{ tot := 0, comps := List.zipWith (fun c d => c + f * d) (q.ph.ems.map fun _ => 0) x.comps }, ?_, rfl, ?_⟩
  · unfold addHeld
    rw [hq]
    simp [hems]
  · have : ∀ (rs : List (SRow nc nlc K)) (ds : List K), ds.length = rs.length →
        (List.zipWith (fun c d => c + f * d) (rs.map fun _ => (0 : K)) ds).sum = f * ds.sum := by
      intro rs
      induction rs with
      | nil => intro ds hd; simp at hd; simp [hd]
      | cons r rs ih =>
        intro ds hd
        cases ds with
        | nil => simp at hd
        | cons d ds =>
          simp only [List.map_cons, List.zipWith_cons_cons, List.sum_cons]
          rw [ih ds (by simpa using hd)]; ring
    exact this _ _ hx

/-! ### Binary64 -/

/-- silmin.c 2120-2124 in binary64: number of increments performed and the final `assimMass`. -/
def massLoop64 (dsp : ℚ) (n : ℤ) : ℕ → ℚ → ℕ → ℕ × ℚ
  | 0, m, k => (k, m)
  | fuel + 1, m, k =>
    if m < dsp then
      massLoop64 dsp n fuel (Num.rnd (m + Num.rnd (Num.rnd (1 / n) * dsp))) (k + 1)
    else (k, m)

/-- C12, the defect in floating point: one gram in ten increments is assimilated in eleven, and the eleventh adds
10 % too much. -/
theorem C12_float_extra_increment :
    (massLoop64 1 10 100 0 0).1 = 11 ∧ 1 < (massLoop64 1 10 100 0 0).2 := by decide +kernel

/-! ### Concrete case -/

/-- A two-oxide system with one liquid and one absent pure phase, one gram in four increments. -/
def assimDemo : Assimilant 2 2 ℚ :=
  ⟨1, 4, 8, 0, 0, [(0, ⟨2, []⟩)], [fun j => if j = 0 then 3 else 5]⟩

/-- Initial state for `assimDemo`. -/
def assimDemoState : AState 2 2 ℚ :=
  ⟨0, 0, -5, 0, 0, ⟨fun _ => 1, [fun _ => 1], [⟨⟨⟨fun _ => 1, fun _ => 1⟩, [], fun _ => true⟩, [], 0⟩]⟩⟩

/-- The demo's tables: liquid components are the oxides. -/
def assimTb : Tables 2 2 ℚ := ⟨fun j o => if j = o then 1 else 0, fun j o => if j = o then 1 else 0⟩

example : AssimOk assimTb assimDemo assimDemoState.sys ∧ 0 < assimDemo.mass ∧ assimDemoState.mass = 0 := by
  refine ⟨?_, by decide +kernel, rfl⟩
  intro a ha q hq
  simp only [assimDemo, List.mem_singleton] at ha
  subst ha
  simp only [assimDemoState, List.getElem?_cons_zero, Option.some.injEq] at hq
  subst hq
  refine ⟨⟨fun _ o => ?_, by simp⟩, rfl, by simp [CopiesOk]⟩
  fin_cases o <;> simp [assimTb]

example : (assimRun assimTb assimDemo ⟨true, false, false⟩ (fun _ => true) (fun _ s => s) assimDemoState 9).mass = 1 ∧
    (assimRun assimTb assimDemo ⟨true, false, false⟩ (fun _ => true) (fun _ s => s) assimDemoState 9).inc = 4 ∧
    (assimRun assimTb assimDemo ⟨true, false, false⟩ (fun _ => true) (fun _ s => s) assimDemoState 9).refH = 3 ∧
    (assimRun assimTb assimDemo ⟨true, false, false⟩ (fun _ => true) (fun _ s => s) assimDemoState 9).sys.bulk 0 = 6 := by
  decide +kernel

end Magma.Engine
