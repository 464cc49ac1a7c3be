import Verif.Engine.FracProps

/-!
Liquid fractionation and the trace-oxide clean-up of `UPDATE_SYSTEM`,
/repo/sources/silmin.c lines 1818-1975.
-/

namespace Magma.Engine

variable {nc : ℕ} {K : Type} [Field K] [LinearOrder K]

/-- A row of the table `liquid`: `liqToOx`, `oxygen.liqToOx` and current molar H, S, V
(silmin.c 1887-1899). -/
structure LRow (nc : ℕ) (K : Type) where
  liqToOx : Fin nc → K
  oxy : K
  h : K
  s : K
  v : K

/-- silmin.c 1889-1899: take `m` moles of liquid component `r` out of the system. The molecular
weight is summed from the oxides (line 1887). -/
def removeLRow (fl : Flags) (oxmw : Fin nc → K) (r : LRow nc K) (m : K) (a : Acc nc K) :
    Acc nc K where
  bulk := fun o => a.bulk o - r.liqToOx o * m
  oxygen := if fl.buffered then a.oxygen - r.oxy * m else a.oxygen
  fracMass := a.fracMass + m * ∑ o, r.liqToOx o * oxmw o
  refH := guardSub fl.isenthalpic a.refH (m * r.h)
  refS := guardSub fl.isentropic a.refS (m * r.s)
  refV := guardSub fl.isochoric a.refV (m * r.v)

/-- silmin.c 1882-1901: the loop over the components of one liquid; `ref` is `refMoles`.
Returns accumulators, the liquid's new moles, the reservoir, and the removed moles. -/
def fracLiqComps (fl : Flags) (oxmw : Fin nc → K) (massin ref : K) :
    List (LRow nc K) → List K → List K → Acc nc K → Acc nc K × List K × List K × List K
  | r :: rs, c :: cs, f :: fs, a =>
    if c ≠ 0 ∧ ref ≠ 0 then
      let moleF := c / ref
      let m := c - massin * moleF
      let res := fracLiqComps fl oxmw massin ref rs cs fs (removeLRow fl oxmw r m a)
      (res.1, massin * moleF :: res.2.1, (f + m) :: res.2.2.1, m :: res.2.2.2)
    else
      let res := fracLiqComps fl oxmw massin ref rs cs fs a
      (res.1, c :: res.2.1, f :: res.2.2.1, 0 :: res.2.2.2)
  | _, cs, fs, a => (a, cs, fs, [])

/-- silmin.c 1878-1921: one coexisting liquid; `hmix`, `smix`, `vmix` are `conLiq` followed by
`hmixLiq`/`smixLiq`/`vmixLiq` as functions of `m`. -/
def fracLiquid (fl : Flags) (oxmw : Fin nc → K) (hmix smix vmix : List K → K) (massin : K)
    (rows : List (LRow nc K)) (cs fs : List K) (a : Acc nc K) : Acc nc K × List K × List K :=
  let ref := cs.sum
  if ref < massin then (a, cs, fs)
  else
    let res := fracLiqComps fl oxmw massin ref rows cs fs a
    let m := res.2.2.2
    let a' := res.1
    ({ a' with
        refH := guardSub fl.isenthalpic a'.refH (m.sum * hmix m)
        refS := guardSub fl.isentropic a'.refS (m.sum * smix m)
        refV := guardSub fl.isochoric a'.refV (m.sum * vmix m) }, res.2.1, res.2.2.1)

/-- silmin.c 1877-1923: loop over the coexisting liquids, all drained into one reservoir
(`fracLComp`). -/
def fracLiquids (fl : Flags) (oxmw : Fin nc → K) (hmix smix vmix : List K → K) (massin : K)
    (rows : List (LRow nc K)) :
    List (List K) → List K → Acc nc K → Acc nc K × List (List K) × List K
  | [], fs, a => (a, [], fs)
  | l :: ls, fs, a =>
    let r := fracLiquid fl oxmw hmix smix vmix massin rows l fs a
    let r' := fracLiquids fl oxmw hmix smix vmix massin rows ls r.2.2 r.1
    (r'.1, r.2.1 :: r'.2.1, r'.2.2)

/-- silmin.c 1874: liquid fractionation runs only when switched on and with liquid present. -/
def fractionateLiquids (fl : Flags) (fractionateLiq hasLiquid : Bool) (oxmw : Fin nc → K)
    (hmix smix vmix : List K → K) (massin : K) (rows : List (LRow nc K)) (ls : List (List K))
    (fs : List K) (a : Acc nc K) : Acc nc K × List (List K) × List K :=
  if fractionateLiq && hasLiquid then fracLiquids fl oxmw hmix smix vmix massin rows ls fs a
  else (a, ls, fs)

/-- Specification: moles of oxide `o` in a vector of liquid component moles. -/
def oxideLiq (rows : List (LRow nc K)) (o : Fin nc) (cs : List K) : K :=
  (List.zipWith (fun r c => c * r.liqToOx o) rows cs).sum

theorem fracLiqComps_spec (fl : Flags) (oxmw : Fin nc → K) (massin ref : K) (href : ref ≠ 0)
    (o : Fin nc) :
    ∀ (rs : List (LRow nc K)) (cs fs : List K) (a : Acc nc K),
      cs.length = rs.length → fs.length = rs.length →
      let r := fracLiqComps fl oxmw massin ref rs cs fs a
      r.2.1 = cs.map (fun c => massin * (c / ref)) ∧
      r.2.2.1.length = rs.length ∧
      r.1.bulk o + oxideLiq rs o r.2.2.1 = a.bulk o + oxideLiq rs o fs ∧
      r.1.bulk o - oxideLiq rs o r.2.1 = a.bulk o - oxideLiq rs o cs
  | [], [], [], a, _, _ => by simp [fracLiqComps]
  | r :: rs, c :: cs, f :: fs, a, h1, h2 => by
    simp only [fracLiqComps]
    by_cases hc : c = 0
    · obtain ⟨i1, i2, i3, i4⟩ := fracLiqComps_spec fl oxmw massin ref href o rs cs fs a
        (by simpa using h1) (by simpa using h2)
      simp only [hc, ne_eq, not_true, false_and, if_false]
      refine ⟨by simp [i1], by simp [i2], ?_, ?_⟩ <;>
        simp only [oxideLiq, List.zipWith_cons_cons, List.sum_cons] at *
      · linear_combination i3
      · linear_combination i4
    · obtain ⟨i1, i2, i3, i4⟩ := fracLiqComps_spec fl oxmw massin ref href o rs cs fs
        (removeLRow fl oxmw r (c - massin * (c / ref)) a) (by simpa using h1) (by simpa using h2)
      rw [if_pos ⟨hc, href⟩]
      refine ⟨by simp [i1], by simp [i2], ?_, ?_⟩ <;>
        simp only [oxideLiq, List.zipWith_cons_cons, List.sum_cons, removeLRow] at *
      · linear_combination i3
      · linear_combination i4
  | [], _ :: _, _, _, h, _ => by simp at h
  | _ :: _, [], _, _, h, _ => by simp at h
  | [], _, _ :: _, _, _, h => by simp at h
  | _ :: _, _, [], _, _, h => by simp at h

theorem fracLiquid_spec (fl : Flags) (oxmw : Fin nc → K) (hm sm vm : List K → K) (massin : K)
    (hpos : 0 < massin) (rows : List (LRow nc K)) (cs fs : List K) (a : Acc nc K)
    (h1 : cs.length = rows.length) (h2 : fs.length = rows.length) :
    let r := fracLiquid fl oxmw hm sm vm massin rows cs fs a
    (r.2.1 = if cs.sum < massin then cs else cs.map (fun c => massin * (c / cs.sum))) ∧
    r.2.2.length = rows.length ∧
    (∀ o, r.1.bulk o + oxideLiq rows o r.2.2 = a.bulk o + oxideLiq rows o fs) ∧
    (∀ o, r.1.bulk o - oxideLiq rows o r.2.1 = a.bulk o - oxideLiq rows o cs) := by
  simp only
  unfold fracLiquid
  simp only
  split
  · exact ⟨rfl, h2, fun _ => rfl, fun _ => rfl⟩
  · rename_i hlt
    have hne : cs.sum ≠ 0 := fun h0 => hlt (by rw [h0]; exact hpos)
    have := fun o => fracLiqComps_spec fl oxmw massin cs.sum hne o rows cs fs a h1 h2
    refine ⟨?_, ?_, fun o => (this o).2.2.1, fun o => (this o).2.2.2⟩
    · by_cases hn : Nonempty (Fin nc)
      · exact (this hn.some).1
      · -- with no oxides the two scalar claims still hold
        clear this
        have gen : ∀ (rs : List (LRow nc K)) (cs fs : List K) (a : Acc nc K) (ref : K), ref ≠ 0 →
            cs.length = rs.length → fs.length = rs.length →
            (fracLiqComps fl oxmw massin ref rs cs fs a).2.1 =
              cs.map (fun c => massin * (c / ref)) := by
          intro rs
          induction rs with
          | nil => intro cs fs a ref _ h1 _; simp at h1; simp [h1, fracLiqComps]
          | cons r rs ih =>
            intro cs fs a ref hr h1 h2
            cases cs with
            | nil => simp at h1
            | cons c cs =>
              cases fs with
              | nil => simp at h2
              | cons f fs =>
                simp only [fracLiqComps]
                by_cases hc : c = 0
                · simp [hc, ih cs fs a ref hr (by simpa using h1) (by simpa using h2)]
                · rw [if_pos ⟨hc, hr⟩]
                  simp [ih cs fs _ ref hr (by simpa using h1) (by simpa using h2)]
        exact gen rows cs fs a cs.sum hne h1 h2
    · have gen : ∀ (rs : List (LRow nc K)) (cs fs : List K) (a : Acc nc K) (ref : K),
          cs.length = rs.length → fs.length = rs.length →
          (fracLiqComps fl oxmw massin ref rs cs fs a).2.2.1.length = rs.length := by
        intro rs
        induction rs with
        | nil => intro cs fs a ref h1 h2; simp at h1 h2; simp [h1, h2, fracLiqComps]
        | cons r rs ih =>
          intro cs fs a ref h1 h2
          cases cs with
          | nil => simp at h1
          | cons c cs =>
            cases fs with
            | nil => simp at h2
            | cons f fs =>
              simp only [fracLiqComps]
              split <;> simp [ih cs fs _ ref (by simpa using h1) (by simpa using h2)]
      exact gen rows cs fs a cs.sum h1 h2

theorem fracLiquids_spec (fl : Flags) (oxmw : Fin nc → K) (hm sm vm : List K → K) (massin : K)
    (hpos : 0 < massin) (rows : List (LRow nc K)) :
    ∀ (ls : List (List K)) (fs : List K) (a : Acc nc K),
      (∀ l ∈ ls, l.length = rows.length) → fs.length = rows.length →
      let r := fracLiquids fl oxmw hm sm vm massin rows ls fs a
      (r.2.1 = ls.map fun l => if l.sum < massin then l else l.map fun c => massin * (c / l.sum)) ∧
      (∀ o, r.1.bulk o + oxideLiq rows o r.2.2 = a.bulk o + oxideLiq rows o fs) ∧
      (∀ o, r.1.bulk o - (r.2.1.map (oxideLiq rows o)).sum =
        a.bulk o - (ls.map (oxideLiq rows o)).sum)
  | [], fs, a, _, _ => by simp [fracLiquids]
  | l :: ls, fs, a, h1, h2 => by
    obtain ⟨p1, p2, p3, p4⟩ := fracLiquid_spec fl oxmw hm sm vm massin hpos rows l fs a
      (h1 l (by simp)) h2
    obtain ⟨q1, q2, q3⟩ := fracLiquids_spec fl oxmw hm sm vm massin hpos rows ls _
      (fracLiquid fl oxmw hm sm vm massin rows l fs a).1
      (fun x hx => h1 x (by simp [hx])) p2
    simp only [fracLiquids]
    refine ⟨?_, fun o => ?_, fun o => ?_⟩
    · rw [List.map_cons, q1, p1]
    · rw [q2 o, p3 o]
    · have e1 := q3 o
      have e2 := p4 o
      simp only [List.map_cons, List.sum_cons]
      linear_combination e1 + e2

/-- **C02.** With liquid fractionation on (and liquid present): every liquid holding at least
`massin` moles is cut down to `massin` times its old mole fractions, smaller ones are untouched;
per oxide, bulk + fractionated liquid is unchanged and bulk − liquids is unchanged. -/
theorem C02_liquid_fractionation (fl : Flags) (oxmw : Fin nc → K) (hm sm vm : List K → K)
    (massin : K) (hpos : 0 < massin) (rows : List (LRow nc K)) (ls : List (List K)) (fs : List K)
    (a : Acc nc K) (h1 : ∀ l ∈ ls, l.length = rows.length) (h2 : fs.length = rows.length) :
    let r := fractionateLiquids fl true true oxmw hm sm vm massin rows ls fs a
    (r.2.1 = ls.map fun l => if l.sum < massin then l else l.map fun c => massin * (c / l.sum)) ∧
    (∀ o, r.1.bulk o + oxideLiq rows o r.2.2 = a.bulk o + oxideLiq rows o fs) ∧
    (∀ o, r.1.bulk o - (r.2.1.map (oxideLiq rows o)).sum =
        a.bulk o - (ls.map (oxideLiq rows o)).sum) := by
  simpa [fractionateLiquids] using fracLiquids_spec fl oxmw hm sm vm massin hpos rows ls fs a h1 h2

/-- A liquid that was cut down holds `massin` moles in total. -/
theorem C02_liquid_left (massin : K) (l : List K) (h : l.sum ≠ 0) :
    (l.map fun c => massin * (c / l.sum)).sum = massin := by
  have : ∀ (l : List K) (s : K), (l.map fun c => massin * (c / s)).sum = massin * (l.sum / s) := by
    intro l s
    induction l with
    | nil => simp
    | cons c cs ih => simp only [List.map_cons, List.sum_cons, ih]; ring
  rw [this, div_self h, mul_one]

/-- **C02 (off).** If it is off, or there is no liquid, nothing happens. -/
theorem C02_off (fl : Flags) (fractionateLiq hasLiquid : Bool)
    (h : (fractionateLiq && hasLiquid) = false) (oxmw : Fin nc → K)
    (hm sm vm : List K → K) (massin : K) (rows : List (LRow nc K)) (ls : List (List K))
    (fs : List K) (a : Acc nc K) :
    fractionateLiquids fl fractionateLiq hasLiquid oxmw hm sm vm massin rows ls fs a =
      (a, ls, fs) := by
  simp [fractionateLiquids, h]

/-- **C02 (mass).** The fractionated mass grows by the grams the bulk loses. -/
theorem C02_liquid_mass (fl : Flags) (b1 b2 : Bool) (oxmw : Fin nc → K) (hm sm vm : List K → K)
    (massin : K) (rows : List (LRow nc K)) (ls : List (List K)) (fs : List K) (a : Acc nc K) :
    let r := fractionateLiquids fl b1 b2 oxmw hm sm vm massin rows ls fs a
    r.1.fracMass - a.fracMass = grams oxmw a.bulk - grams oxmw r.1.bulk := by
  have c : ∀ (ref : K) (rs : List (LRow nc K)) (cs fs : List K) (a : Acc nc K),
      (fracLiqComps fl oxmw massin ref rs cs fs a).1.fracMass +
        grams oxmw (fracLiqComps fl oxmw massin ref rs cs fs a).1.bulk =
      a.fracMass + grams oxmw a.bulk := by
    intro ref rs
    induction rs with
    | nil => intro cs fs a; simp [fracLiqComps]
    | cons r rs ih =>
      intro cs fs a
      cases cs with
      | nil => simp [fracLiqComps]
      | cons c cs =>
        cases fs with
        | nil => simp [fracLiqComps]
        | cons f fs =>
          simp only [fracLiqComps]
          split
          · simp only [ih]
            simp only [removeLRow, grams, sub_mul, Finset.sum_sub_distrib]
            have : ∑ o, r.liqToOx o * (c - massin * (c / ref)) * oxmw o =
                (c - massin * (c / ref)) * ∑ o, r.liqToOx o * oxmw o := by
              rw [Finset.mul_sum]; exact Finset.sum_congr rfl (fun _ _ => by ring)
            rw [this]; ring
          · simp only [ih]
  have l : ∀ (ls : List (List K)) (fs : List K) (a : Acc nc K),
      (fracLiquids fl oxmw hm sm vm massin rows ls fs a).1.fracMass +
        grams oxmw (fracLiquids fl oxmw hm sm vm massin rows ls fs a).1.bulk =
      a.fracMass + grams oxmw a.bulk := by
    intro ls
    induction ls with
    | nil => intro fs a; rfl
    | cons x xs ih =>
      intro fs a
      simp only [fracLiquids, ih]
      unfold fracLiquid
      simp only
      split
      · rfl
      · exact c _ _ _ _ _
  simp only
  unfold fractionateLiquids
  split
  · have := l ls fs a
    linear_combination this
  · simp

example : -- hypotheses met: two liquids, one above and one below the threshold
    let r := fractionateLiquids (nc := 1) (K := ℚ) demoFlags true true ![2] (fun _ => 0)
      (fun _ => 0) (fun _ => 0) 1 [⟨![1], 0, 0, 0, 0⟩, ⟨![3], 0, 0, 0, 0⟩] [[1, 3], [0, 1/2]]
      [0, 0] ⟨![20], 0, 0, 0, 0, 0⟩
    r.2 = ([[1/4, 3/4], [0, 1/2]], [3/4, 9/4]) ∧ r.1.bulk 0 = 20 - 3/4 - 27/4 := by
  simp [fractionateLiquids, fracLiquids, fracLiquid, fracLiqComps, removeLRow, demoFlags]
  norm_num

/-! ### The trace-oxide clean-up, silmin.c 1818-1861 (repeated at 1929-1972) -/

/-- The part of the state the clean-up touches: bulk, liquids, and the copies of each solid. -/
structure CleanState (nc : ℕ) (K : Type) where
  bulk : Fin nc → K
  liquids : List (List K)
  solids : List (Phase nc K × List (Inst K))

/-- silmin.c 1819: the oxide is to be deleted. -/
def isTrace (massout : K) (fe2o3 : Fin nc → Bool) (bulk : Fin nc → K) (o : Fin nc) : Bool :=
  decide (bulk o ≠ 0 ∧ bulk o < massout ∧ fe2o3 o = false)

/-- silmin.c 1826-1827, one liquid: every component containing oxide `o` is set to zero. -/
def zeroLiq (rows : List (LRow nc K)) (o : Fin nc) (cs : List K) : List K :=
  List.zipWith (fun r c => if r.liqToOx o ≠ 0 then 0 else c) rows cs

/-- silmin.c 1846-1856: end-members containing oxide `o` are set to zero and taken off the total. -/
def zeroComps (o : Fin nc) : List (Row nc K) → List K → K → K × List K
  | r :: rs, c :: cs, tot =>
    if r.solToOx o ≠ 0 then
      let q := zeroComps o rs cs (tot - c)
      (q.1, 0 :: q.2)
    else
      let q := zeroComps o rs cs tot
      (q.1, c :: q.2)
  | _, cs, tot => (tot, cs)

/-- silmin.c 1836-1857, one copy of a solid. -/
def zeroInst (p : Phase nc K) (o : Fin nc) (x : Inst K) : Inst K :=
  if p.ems = [] then (if p.row.solToOx o ≠ 0 then ⟨0, x.comps⟩ else x)
  else ⟨(zeroComps o p.ems x.comps x.tot).1, (zeroComps o p.ems x.comps x.tot).2⟩

/-- silmin.c 1818-1861, body for oxide `o`. -/
def cleanOxide (massout : K) (fe2o3 : Fin nc → Bool) (rows : List (LRow nc K))
    (st : CleanState nc K) (o : Fin nc) : CleanState nc K :=
  if isTrace massout fe2o3 st.bulk o then
    { bulk := fun k => if k = o then 0 else st.bulk k
      liquids := st.liquids.map (zeroLiq rows o)
      solids := st.solids.map fun q => (q.1, q.2.map (zeroInst q.1 o)) }
  else st

/-- silmin.c 1818: loop over the oxides in order. -/
def cleanTrace (massout : K) (fe2o3 : Fin nc → Bool) (rows : List (LRow nc K))
    (st : CleanState nc K) : CleanState nc K :=
  (List.finRange nc).foldl (cleanOxide massout fe2o3 rows) st

theorem cleanFold_bulk (massout : K) (fe2o3 : Fin nc → Bool) (rows : List (LRow nc K)) :
    ∀ (os : List (Fin nc)), os.Nodup → ∀ (st : CleanState nc K) (k : Fin nc),
      (os.foldl (cleanOxide massout fe2o3 rows) st).bulk k =
        if k ∈ os ∧ isTrace massout fe2o3 st.bulk k = true then 0 else st.bulk k
  | [], _, st, k => by simp
  | o :: os, hnd, st, k => by
    have hn := List.nodup_cons.mp hnd
    rw [List.foldl_cons, cleanFold_bulk massout fe2o3 rows os hn.2]
    by_cases ht : isTrace massout fe2o3 st.bulk o = true
    · have hb : (cleanOxide massout fe2o3 rows st o).bulk =
          fun k => if k = o then 0 else st.bulk k := by simp [cleanOxide, ht]
      by_cases hk : k = o
      · subst hk; simp [hn.1, hb, ht]
      · simp [hk, hb, isTrace]
    · simp only [cleanOxide, if_neg ht]
      by_cases hk : k = o
      · subst hk; simp [hn.1, ht]
      · simp [hk]

/-- **C03 (bulk).** Exactly the oxides below the threshold (Fe2O3 excepted) lose their bulk moles. -/
theorem C03_cleanup_bulk (massout : K) (fe2o3 : Fin nc → Bool) (rows : List (LRow nc K))
    (st : CleanState nc K) (k : Fin nc) :
    (cleanTrace massout fe2o3 rows st).bulk k =
      if st.bulk k ≠ 0 ∧ st.bulk k < massout ∧ fe2o3 k = false then 0 else st.bulk k := by
  rw [cleanTrace, cleanFold_bulk massout fe2o3 rows _ (List.nodup_finRange nc)]
  simp [isTrace]

theorem cleanFold_zero (massout : K) (fe2o3 : Fin nc → Bool) (rows : List (LRow nc K)) :
    ∀ (os : List (Fin nc)), os.Nodup → ∀ (st : CleanState nc K),
      (os.foldl (cleanOxide massout fe2o3 rows) st).liquids =
        (os.filter (isTrace massout fe2o3 st.bulk)).foldl
          (fun ls o => ls.map (zeroLiq rows o)) st.liquids ∧
      (os.foldl (cleanOxide massout fe2o3 rows) st).solids =
        (os.filter (isTrace massout fe2o3 st.bulk)).foldl
          (fun ss o => ss.map fun q => (q.1, q.2.map (zeroInst q.1 o))) st.solids
  | [], _, st => by simp
  | o :: os, hnd, st => by
    have hn := List.nodup_cons.mp hnd
    have ih := cleanFold_zero massout fe2o3 rows os hn.2 (cleanOxide massout fe2o3 rows st o)
    rw [List.foldl_cons]
    have hf : os.filter (isTrace massout fe2o3 (cleanOxide massout fe2o3 rows st o).bulk) =
        os.filter (isTrace massout fe2o3 st.bulk) := by
      apply List.filter_congr
      intro x hx
      have hxo : x ≠ o := fun h => hn.1 (h ▸ hx)
      unfold cleanOxide
      split
      · simp [isTrace, hxo]
      · rfl
    rw [ih.1, ih.2, hf]
    by_cases ht : isTrace massout fe2o3 st.bulk o = true
    · simp [cleanOxide, ht, List.filter_cons]
    · simp [cleanOxide, ht, List.filter_cons]

theorem foldl_map_map {α β : Type*} (g : β → α → α) :
    ∀ (os : List β) (l : List α),
      os.foldl (fun ls o => ls.map (g o)) l = l.map fun x => os.foldl (fun y o => g o y) x
  | [], l => by simp
  | o :: os, l => by simp [foldl_map_map g os, Function.comp_def]

theorem zeroLiq_fold (rows : List (LRow nc K)) :
    ∀ (os : List (Fin nc)) (cs : List K), cs.length = rows.length →
      os.foldl (fun y o => zeroLiq rows o y) cs =
        List.zipWith (fun r c => if ∃ o ∈ os, r.liqToOx o ≠ 0 then 0 else c) rows cs := by
  intro os
  induction os with
  | nil =>
    intro cs h
    simp only [List.foldl_nil, List.not_mem_nil, false_and, exists_false, if_false]
    induction rows generalizing cs with
    | nil => simp at h; simp [h]
    | cons r rs ih =>
      cases cs with
      | nil => simp at h
      | cons c cs => simp [← ih cs (by simpa using h)]
  | cons o os ih =>
    intro cs h
    rw [List.foldl_cons, ih _ (by simp [zeroLiq, h])]
    clear ih
    induction rows generalizing cs with
    | nil => simp
    | cons r rs ih2 =>
      cases cs with
      | nil => simp at h
      | cons c cs =>
        have := ih2 cs (by simpa using h)
        simp only [zeroLiq, List.zipWith_cons_cons] at this ⊢
        rw [this]
        congr 1
        by_cases h1 : r.liqToOx o ≠ 0
        · simp [h1]
        · push Not at h1
          simp [h1]

/-- The oxide is deleted by the clean-up. -/
def Deleted (massout : K) (fe2o3 : Fin nc → Bool) (st : CleanState nc K) (o : Fin nc) : Prop :=
  st.bulk o ≠ 0 ∧ st.bulk o < massout ∧ fe2o3 o = false

open Classical in
/-- **C03 (liquids).** In every liquid exactly the components that contain a deleted oxide become
zero, all others are unchanged. -/
theorem C03_cleanup_liquids (massout : K) (fe2o3 : Fin nc → Bool) (rows : List (LRow nc K))
    (st : CleanState nc K) (h : ∀ l ∈ st.liquids, l.length = rows.length) :
    (cleanTrace massout fe2o3 rows st).liquids = st.liquids.map fun l =>
      List.zipWith (fun r c => if ∃ o, Deleted massout fe2o3 st o ∧ r.liqToOx o ≠ 0 then 0 else c)
        rows l := by
  rw [cleanTrace, (cleanFold_zero massout fe2o3 rows _ (List.nodup_finRange nc) st).1,
    foldl_map_map]
  apply List.map_congr_left
  intro l hl
  rw [zeroLiq_fold rows _ l (h l hl)]
  congr 1
  funext r c
  have : (∃ o ∈ List.filter (isTrace massout fe2o3 st.bulk) (List.finRange nc), r.liqToOx o ≠ 0) ↔
      ∃ o, Deleted massout fe2o3 st o ∧ r.liqToOx o ≠ 0 := by simp [isTrace, Deleted]
  by_cases hh : ∃ o, Deleted massout fe2o3 st o ∧ r.liqToOx o ≠ 0
  · rw [if_pos hh, if_pos (this.mpr hh)]
  · rw [if_neg hh, if_neg (fun x => hh (this.mp x))]

theorem zeroComps_total (o : Fin nc) :
    ∀ (rs : List (Row nc K)) (cs : List K) (tot : K),
      (zeroComps o rs cs tot).1 - (zeroComps o rs cs tot).2.sum = tot - cs.sum
  | [], cs, tot => by simp [zeroComps]
  | _ :: _, [], tot => by simp [zeroComps]
  | r :: rs, c :: cs, tot => by
    simp only [zeroComps]
    split
    · have := zeroComps_total o rs cs (tot - c)
      simp only [List.sum_cons]; linear_combination this
    · have := zeroComps_total o rs cs tot
      simp only [List.sum_cons]; linear_combination this

/-- **C03 (solid totals).** A solution's total stays the sum of its end-members. -/
theorem C03_cleanup_solid_total (p : Phase nc K) (o : Fin nc) (x : Inst K) (he : p.ems ≠ [])
    (h : x.tot = x.comps.sum) : (zeroInst p o x).tot = (zeroInst p o x).comps.sum := by
  have := zeroComps_total o p.ems x.comps x.tot
  simp only [zeroInst, if_neg he]
  rw [h] at this ⊢
  linear_combination this

theorem zeroComps_oxide (o : Fin nc) :
    ∀ (rs : List (Row nc K)) (cs : List K) (tot : K),
      (List.zipWith (fun r c => c * r.solToOx o) rs (zeroComps o rs cs tot).2).sum = 0
  | [], cs, tot => by simp [zeroComps]
  | _ :: _, [], tot => by simp [zeroComps]
  | r :: rs, c :: cs, tot => by
    simp only [zeroComps]
    split
    · simp [zeroComps_oxide o rs cs]
    · rename_i h
      push Not at h
      simp [zeroComps_oxide o rs cs, h]

/-- **C03 (removed everywhere).** After the clean-up pass for `o`, no solid contains `o`. -/
theorem C03_cleanup_solid_oxide (p : Phase nc K) (o : Fin nc) (x : Inst K) :
    oxideOf p o (zeroInst p o x) = 0 := by
  unfold oxideOf zeroInst
  split
  · split
    · simp
    · rename_i h; push Not at h; simp [h]
  · exact zeroComps_oxide o _ _ _

theorem zeroComps_snd (o : Fin nc) :
    ∀ (rs : List (Row nc K)) (cs : List K) (tot : K), cs.length = rs.length →
      (zeroComps o rs cs tot).2 =
        List.zipWith (fun r c => if r.solToOx o ≠ 0 then 0 else c) rs cs
  | [], [], tot, _ => by simp [zeroComps]
  | [], _ :: _, _, h => by simp at h
  | _ :: _, [], _, h => by simp at h
  | r :: rs, c :: cs, tot, h => by
    simp only [zeroComps, List.zipWith_cons_cons]
    split
    · simp only [zeroComps_snd o rs cs _ (by simpa using h)]
    · simp only [zeroComps_snd o rs cs _ (by simpa using h)]

theorem zeroInst_fold (p : Phase nc K) :
    ∀ (os : List (Fin nc)) (x : Inst K), x.comps.length = p.ems.length →
      let y := os.foldl (fun y o => zeroInst p o y) x
      (p.ems = [] → y = if ∃ o ∈ os, p.row.solToOx o ≠ 0 then ⟨0, x.comps⟩ else x) ∧
      (p.ems ≠ [] →
        y.comps = List.zipWith (fun r c => if ∃ o ∈ os, r.solToOx o ≠ 0 then 0 else c)
          p.ems x.comps ∧
        y.tot - y.comps.sum = x.tot - x.comps.sum) := by
  intro os
  induction os with
  | nil =>
    intro x h
    refine ⟨fun _ => by simp, fun _ => ⟨?_, rfl⟩⟩
    simp only [List.foldl_nil, List.not_mem_nil, false_and, exists_false, if_false]
    have : ∀ (rs : List (Row nc K)) (cs : List K), cs.length = rs.length →
        cs = List.zipWith (fun _ c => c) rs cs := by
      intro rs
      induction rs with
      | nil => intro cs h; simp at h; simp [h]
      | cons r rs ih =>
        intro cs h
        cases cs with
        | nil => simp at h
        | cons c cs => simp [← ih cs (by simpa using h)]
    exact this _ _ h
  | cons o os ih =>
    intro x h
    simp only [List.foldl_cons]
    by_cases he : p.ems = []
    · refine ⟨fun _ => ?_, fun hne => absurd he hne⟩
      have hl : (zeroInst p o x).comps = x.comps := by
        simp only [zeroInst, if_pos he]; split <;> rfl
      rw [(ih (zeroInst p o x) (by rw [hl, h])).1 he, hl]
      by_cases h1 : p.row.solToOx o = 0
      · simp [zeroInst, he, h1]
      · simp [zeroInst, he, h1]
    · refine ⟨fun hne => absurd hne he, fun _ => ?_⟩
      have hc : (zeroInst p o x).comps =
          List.zipWith (fun r c => if r.solToOx o ≠ 0 then 0 else c) p.ems x.comps := by
        simp only [zeroInst, if_neg he]; exact zeroComps_snd o _ _ _ h
      obtain ⟨i1, i2⟩ := (ih (zeroInst p o x) (by rw [hc]; simp [h])).2 he
      constructor
      · rw [i1, hc]
        have : ∀ (rs : List (Row nc K)) (cs : List K), cs.length = rs.length →
            List.zipWith (fun r c => if ∃ o ∈ os, r.solToOx o ≠ 0 then 0 else c) rs
              (List.zipWith (fun r c => if r.solToOx o ≠ 0 then 0 else c) rs cs) =
            List.zipWith (fun r c => if ∃ k ∈ o :: os, r.solToOx k ≠ 0 then 0 else c) rs cs := by
          intro rs
          induction rs with
          | nil => intro cs h; simp
          | cons r rs ih2 =>
            intro cs h
            cases cs with
            | nil => simp at h
            | cons c cs =>
              simp only [List.zipWith_cons_cons, ih2 cs (by simpa using h)]
              congr 1
              by_cases h1 : r.solToOx o = 0 <;> simp [h1]
        exact this _ _ h
      · rw [i2]
        simp only [zeroInst, if_neg he]
        exact zeroComps_total o p.ems x.comps x.tot

open Classical in
/-- **C03 (solids).** In every copy of a solution exactly the end-members that contain a deleted
oxide become zero and the total is reduced by what they held; a pure phase becomes zero exactly if
it contains a deleted oxide. -/
theorem C03_cleanup_solids (massout : K) (fe2o3 : Fin nc → Bool) (rows : List (LRow nc K))
    (st : CleanState nc K)
    (h : ∀ q ∈ st.solids, ∀ x ∈ q.2, x.comps.length = q.1.ems.length) :
    List.Forall₂ (fun q q' => q'.1 = q.1 ∧ List.Forall₂ (fun x y =>
        (q.1.ems = [] → y = if ∃ o, Deleted massout fe2o3 st o ∧ q.1.row.solToOx o ≠ 0
          then ⟨0, x.comps⟩ else x) ∧
        (q.1.ems ≠ [] →
          y.comps = List.zipWith (fun r c =>
            if ∃ o, Deleted massout fe2o3 st o ∧ r.solToOx o ≠ 0 then 0 else c) q.1.ems x.comps ∧
          y.tot - y.comps.sum = x.tot - x.comps.sum)) q.2 q'.2)
      st.solids (cleanTrace massout fe2o3 rows st).solids := by
  rw [cleanTrace, (cleanFold_zero massout fe2o3 rows _ (List.nodup_finRange nc) st).2,
    foldl_map_map, List.forall₂_map_right_iff]
  rw [List.forall₂_same]
  intro q hq
  have hos : ∀ (f : Fin nc → K),
      (∃ o ∈ List.filter (isTrace massout fe2o3 st.bulk) (List.finRange nc), f o ≠ 0) ↔
      ∃ o, Deleted massout fe2o3 st o ∧ f o ≠ 0 := by intro f; simp [isTrace, Deleted]
  have hfold : ∀ (os : List (Fin nc)) (q : Phase nc K × List (Inst K)),
      os.foldl (fun (y : Phase nc K × List (Inst K)) o => (y.1, y.2.map (zeroInst y.1 o))) q =
      (q.1, q.2.map fun x => os.foldl (fun y o => zeroInst q.1 o y) x) := by
    intro os
    induction os with
    | nil => intro q; simp
    | cons o os ih => intro q; simp [ih, Function.comp_def]
  rw [hfold]
  refine ⟨rfl, ?_⟩
  rw [List.forall₂_map_right_iff, List.forall₂_same]
  intro x hx
  have hz := zeroInst_fold q.1 (List.filter (isTrace massout fe2o3 st.bulk) (List.finRange nc)) x
    (h q hq x hx)
  refine ⟨fun he => ?_, fun he => ⟨?_, (hz.2 he).2⟩⟩
  · rw [hz.1 he]
    by_cases hh : ∃ o, Deleted massout fe2o3 st o ∧ q.1.row.solToOx o ≠ 0
    · rw [if_pos hh, if_pos ((hos _).mpr hh)]
    · rw [if_neg hh, if_neg (fun x => hh ((hos _).mp x))]
  · rw [(hz.2 he).1]
    congr 1
    funext r c
    by_cases hh : ∃ o, Deleted massout fe2o3 st o ∧ r.solToOx o ≠ 0
    · rw [if_pos hh, if_pos ((hos _).mpr hh)]
    · rw [if_neg hh, if_neg (fun x => hh ((hos _).mp x))]

/-- Bulk equals liquids plus solids, for every oxide. -/
def Balanced (rows : List (LRow nc K)) (st : CleanState nc K) : Prop :=
  ∀ o, st.bulk o = (st.liquids.map (oxideLiq rows o)).sum +
    (st.solids.map fun q => (q.2.map (oxideOf q.1 o)).sum).sum

/-- A titanium-and-silica style system: oxide 0 is at half the threshold and is carried by a liquid
component that also carries oxide 1. -/
def demoClean : CleanState 2 ℚ := ⟨![1/2, 11/2], [[1/2, 5]], []⟩
def demoRows : List (LRow 2 ℚ) := [⟨![1, 1], 0, 0, 0, 0⟩, ⟨![0, 1], 0, 0, 0, 0⟩]

/-- **C03 (not conservative).** There are balanced systems that the clean-up leaves unbalanced. -/
theorem C03_cleanup_breaks_balance :
    Balanced demoRows demoClean ∧
    ¬ Balanced demoRows (cleanTrace 1 (fun _ => false) demoRows demoClean) := by
  constructor
  · intro o
    fin_cases o <;> simp [demoRows, demoClean, oxideLiq] <;> norm_num
  · intro h
    have := h 1
    rw [C03_cleanup_bulk, C03_cleanup_liquids _ _ _ _ (by simp [demoClean, demoRows])] at this
    have hs : (cleanTrace 1 (fun _ => false) demoRows demoClean).solids = [] := by
      rw [cleanTrace, (cleanFold_zero _ _ _ _ (List.nodup_finRange 2) _).2, foldl_map_map]
      rfl
    rw [hs] at this
    simp [demoClean, demoRows, oxideLiq, Deleted, Fin.exists_fin_two] at this
    norm_num at this

end Magma.Engine
