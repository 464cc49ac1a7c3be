import Verif.Engine.DropProps
import Verif.Engine.Select

/-! Properties C15, C43, C44 and the subsolidus half of C04. -/

namespace Magma.Engine

variable {nc nlc : ℕ} {K : Type} [Field K] [LinearOrder K]

/-- The solver returns one number per end-member of each present phase. -/
def Shape : List (SState nc nlc K) → List (List K) → Prop
  | [], _ => True
  | q :: qs, xss =>
    match q.insts with
    | [] => Shape qs xss
    | x :: _ => x.comps.length = q.ph.ems.length ∧
        (if q.ph.ems = [] then True else (xss.headD []).length = q.ph.ems.length) ∧ Shape qs xss.tail

/-- Oxides released by a correction: the weighted stoichiometry matrix of the first copies times the
solver's vector. -/
def supplied (o : Fin nc) : List (SState nc nlc K) → List (List K) → K
  | [], _ => 0
  | q :: qs, xss =>
    match q.insts with
    | [] => supplied o qs xss
    | x :: _ =>
      (if q.ph.ems = [] then q.ph.row.solToOx o * x.tot * (xss.headD []).headD 0
       else (List.zipWith (fun r w => r.solToOx o * w) q.ph.ems
          (List.zipWith (fun c s => c * s) x.comps (xss.headD []))).sum) +
        supplied o qs xss.tail

theorem zip_undo : ∀ (cs xs : List K), xs.length = cs.length →
    List.zipWith (fun c d => c + d)
      (List.zipWith (fun c d => c - d) cs (List.zipWith (fun c s => c * s) cs xs))
      (List.zipWith (fun c s => c * s) cs xs) = cs
  | [], _, _ => by simp
  | c :: cs, [], h => by simp at h
  | c :: cs, x :: xs, h => by
    simp only [List.zipWith_cons_cons, sub_add_cancel, List.cons.injEq, true_and]
    exact zip_undo cs xs (by simpa using h)

theorem uncorrect_correct : ∀ (ss : List (SState nc nlc K)) (xss : List (List K)), Shape ss xss →
    uncorrectAll ss (correctAll ss xss).1 xss = ss
  | [], xss, _ => by simp [correctAll, uncorrectAll]
  | q :: qs, xss, h => by
    unfold Shape at h
    unfold correctAll
    cases hq : q.insts with
    | nil =>
      simp only [hq] at h ⊢
      simp [uncorrectAll, hq, uncorrect_correct qs xss h]
    | cons x rest =>
      simp only [hq] at h ⊢
      obtain ⟨h1, h2, h3⟩ := h
      simp only [uncorrectAll, hq, uncorrect_correct qs xss.tail h3, List.cons.injEq, and_true]
      have : uncorrectCopy q.ph (xss.headD []) x (correctCopy q.ph (xss.headD []) x).1 = x := by
        unfold uncorrectCopy correctCopy
        by_cases he : q.ph.ems = []
        · simp [he]
        · simp only [he, if_false] at h2 ⊢
          rw [zip_undo _ _ (by rw [h2, h1])]
          simp
      rw [this, ← hq]

/-- **C15 (rejection).** A refused redistribution leaves every solid exactly as it was. -/
theorem C15_rejected_unchanged (solve : List (SState nc nlc K) → (Fin nc → K) → List (List K))
    (ss ss' : List (SState nc nlc K)) (delta : Fin nc → K) (hshape : Shape ss (solve ss delta))
    (h : addOrDropLiquid solve ss delta = (ss', false)) : ss' = ss := by
  unfold addOrDropLiquid at h
  split at h
  · simp only [Prod.mk.injEq, and_true] at h; exact h.symm
  · simp only at h
    split at h
    · rename_i hr
      rw [h] at hr; simp at hr
    · simp only [Prod.mk.injEq, and_true] at h
      rw [uncorrect_correct ss _ hshape] at h
      exact h.symm

theorem rejected_fst (solve : List (SState nc nlc K) → (Fin nc → K) → List (List K))
    (ss : List (SState nc nlc K)) (delta : Fin nc → K) (hshape : Shape ss (solve ss delta))
    (h : (addOrDropLiquid solve ss delta).2 = false) : (addOrDropLiquid solve ss delta).1 = ss :=
  C15_rejected_unchanged solve ss _ delta hshape (Prod.ext rfl h)

theorem zip_supplied (o : Fin nc) : ∀ (rs : List (SRow nc nlc K)) (cs ds : List K),
    cs.length = rs.length → ds.length = rs.length →
    (List.zipWith (fun r c => c * r.solToOx o) rs (List.zipWith (fun c d => c - d) cs ds)).sum =
      (List.zipWith (fun r c => c * r.solToOx o) rs cs).sum -
      (List.zipWith (fun r w => r.solToOx o * w) rs ds).sum
  | [], _, _, _, _ => by simp
  | r :: rs, c :: cs, d :: ds, h1, h2 => by
    have := zip_supplied o rs cs ds (by simpa using h1) (by simpa using h2)
    simp only [List.zipWith_cons_cons, List.sum_cons, this]; ring
  | _ :: _, [], _, h, _ => by simp at h
  | _ :: _, _, [], _, h => by simp at h

theorem correctAll_oxide (o : Fin nc) : ∀ (ss : List (SState nc nlc K)) (xss : List (List K)),
    Shape ss xss →
    solidsOxide (correctAll ss xss).1 o = solidsOxide ss o - supplied o ss xss
  | [], xss, _ => by simp [correctAll, supplied, solidsOxide]
  | q :: qs, xss, h => by
    unfold Shape at h
    unfold correctAll supplied
    cases hq : q.insts with
    | nil =>
      simp only [hq] at h ⊢
      have := correctAll_oxide o qs xss h
      simp only [solidsOxide, List.map_cons, List.sum_cons] at this ⊢
      rw [this]; ring
    | cons x rest =>
      simp only [hq] at h ⊢
      obtain ⟨h1, h2, h3⟩ := h
      have := correctAll_oxide o qs xss.tail h3
      simp only [solidsOxide, List.map_cons, List.sum_cons, hq] at this ⊢
      rw [this]
      have hx : soxide q.ph o (correctCopy q.ph (xss.headD []) x).1 = soxide q.ph o x -
          (if q.ph.ems = [] then q.ph.row.solToOx o * x.tot * (xss.headD []).headD 0
           else (List.zipWith (fun r w => r.solToOx o * w) q.ph.ems
              (List.zipWith (fun c s => c * s) x.comps (xss.headD []))).sum) := by
        unfold soxide correctCopy
        by_cases he : q.ph.ems = []
        · simp only [he, if_true]; ring
        · simp only [he, if_false] at h2 ⊢
          rw [zip_supplied o _ _ _ h1 (by rw [List.length_zipWith, h1, h2, min_self])]
      rw [hx]; ring

/-- What an accepted redistribution must have done to a phase: its first copy is still there with a
positive amount whose loss is the sum of the end-members' losses, the other copies are untouched. -/
def Redistributed (q q' : SState nc nlc K) : Prop :=
  q'.ph = q.ph ∧ q'.cyl = q.cyl ∧
  match q.insts with
  | [] => q'.insts = []
  | x :: rest => ∃ y, q'.insts = y :: rest ∧ 0 < y.tot ∧
      (q.ph.ems ≠ [] → x.comps.length = y.comps.length ∧
        x.tot - x.comps.sum = y.tot - y.comps.sum)

theorem zip_sub_sum : ∀ (cs ds : List K), ds.length = cs.length →
    (List.zipWith (fun c d => c - d) cs ds).sum = cs.sum - ds.sum
  | [], [], _ => by simp
  | c :: cs, d :: ds, h => by
    have := zip_sub_sum cs ds (by simpa using h)
    simp only [List.zipWith_cons_cons, List.sum_cons, this]; ring
  | [], _ :: _, h => by simp at h
  | _ :: _, [], h => by simp at h

theorem correctAll_redistributed : ∀ (ss : List (SState nc nlc K)) (xss : List (List K)),
    Shape ss xss → (correctAll ss xss).2 = true →
    List.Forall₂ Redistributed ss (correctAll ss xss).1
  | [], xss, _, _ => by simp [correctAll]
  | q :: qs, xss, h, hr => by
    unfold Shape at h
    unfold correctAll at hr ⊢
    cases hq : q.insts with
    | nil =>
      simp only [hq] at h hr ⊢
      refine List.Forall₂.cons ⟨rfl, rfl, by simp [hq]⟩ (correctAll_redistributed qs xss h hr)
    | cons x rest =>
      simp only [hq, Bool.and_eq_true] at h hr ⊢
      obtain ⟨h1, h2, h3⟩ := h
      refine List.Forall₂.cons ⟨rfl, rfl, ?_⟩ (correctAll_redistributed qs xss.tail h3 hr.2)
      simp only [hq]
      refine ⟨_, rfl, ?_, ?_⟩
      · have := hr.1
        unfold correctCopy at this ⊢
        split at this
        · rename_i he; simpa [he] using this
        · rename_i he
          simp only [Bool.and_eq_true, decide_eq_true_eq] at this
          simpa [he] using this.1
      · intro he
        simp only [he, if_false] at h2
        unfold correctCopy
        simp only [he, if_false]
        have hl : (List.zipWith (fun c s => c * s) x.comps (xss.headD [])).length =
            x.comps.length := by rw [List.length_zipWith, h1, h2, min_self]
        rw [zip_sub_sum _ _ hl]
        refine ⟨by rw [List.length_zipWith, hl, min_self], by ring⟩

/-- **C15 (acceptance).** An accepted redistribution lowers each oxide total of the solids by exactly
what the solver asked the first copies to supply - so by `delta` when the solver solved the system -
keeps every first copy positive and touches no other copy. -/
theorem C15_accepted_effect (solve : List (SState nc nlc K) → (Fin nc → K) → List (List K))
    (ss ss' : List (SState nc nlc K)) (delta : Fin nc → K) (hshape : Shape ss (solve ss delta))
    (h : addOrDropLiquid solve ss delta = (ss', true)) :
    (∀ o, solidsOxide ss' o = solidsOxide ss o - supplied o ss (solve ss delta)) ∧
    ((∀ o, supplied o ss (solve ss delta) = delta o) →
      ∀ o, solidsOxide ss' o + delta o = solidsOxide ss o) ∧
    List.Forall₂ Redistributed ss ss' := by
  unfold addOrDropLiquid at h
  split at h
  · simp at h
  · simp only at h
    split at h
    · rename_i hr
      have e : ss' = (correctAll ss (solve ss delta)).1 := by rw [h]
      have ho := fun o => correctAll_oxide o ss (solve ss delta) hshape
      refine ⟨fun o => by rw [e, ho], fun hs o => by rw [e, ho, hs]; ring, ?_⟩
      rw [e]; exact correctAll_redistributed ss _ hshape hr
    · simp at h

/-- **C15 (nothing to take from).** With no solid present the call is refused. -/
theorem C15_no_solids (solve : List (SState nc nlc K) → (Fin nc → K) → List (List K))
    (ss : List (SState nc nlc K)) (delta : Fin nc → K) (h : ∀ q ∈ ss, q.insts = []) :
    addOrDropLiquid solve ss delta = (ss, false) := by
  unfold addOrDropLiquid
  rw [if_pos]
  simp only [List.all_eq_true, List.isEmpty_iff]
  exact h

/-- **C15 (defect).** Feasibility is judged on the composition before the change: there is an
assemblage, with an exact solver, for which the change is accepted although the resulting
composition of the only solution fails its own feasibility test. -/
theorem C15_accepts_infeasible :
    ∃ (ss ss' : List (SState 2 1 ℚ)) (solve : List (SState 2 1 ℚ) → (Fin 2 → ℚ) → List (List ℚ))
      (delta : Fin 2 → ℚ) (q q' : SState 2 1 ℚ) (y : Inst ℚ),
      ss = [q] ∧ ss' = [q'] ∧ q'.insts = [y] ∧ Shape ss (solve ss delta) ∧
      (∀ o, supplied o ss (solve ss delta) = delta o) ∧
      addOrDropLiquid solve ss delta = (ss', true) ∧
      (∀ x ∈ q.insts, q.ph.test x.comps = true) ∧ q.ph.test y.comps = false := by
  let p : SPhase 2 1 ℚ := ⟨⟨![0, 0], ![0]⟩, [⟨![1, 0], ![0]⟩, ⟨![0, 1], ![0]⟩],
    fun cs => cs.all fun c => decide (0 ≤ c)⟩
  let q : SState 2 1 ℚ := ⟨p, [⟨3, [1, 2]⟩], 0⟩
  let y : Inst ℚ := ⟨1, [-1, 2]⟩
  let solve : List (SState 2 1 ℚ) → (Fin 2 → ℚ) → List (List ℚ) := fun _ _ => [[2, 0]]
  refine ⟨[q], [⟨p, [y], 0⟩], solve, ![2, 0], q, ⟨p, [y], 0⟩, y, rfl, rfl, rfl, ?_, ?_, ?_, ?_, ?_⟩
  · simp [Shape, q, p, solve]
  · intro o; fin_cases o <;> simp [supplied, q, p, solve]
  · simp [addOrDropLiquid, correctAll, correctCopy, q, p, solve, y]
    norm_num
  · simp [q, p]
  · simp [q, p, y]

/-! ### Nucleation of solids without liquid (C04) -/

theorem correctAll_get (ss : List (SState nc nlc K)) (xss : List (List K)) (k : ℕ)
    (q : SState nc nlc K) (hk : ss[k]? = some q) (he : q.insts = []) :
    (correctAll ss xss).1[k]? = some q := by
  induction ss generalizing k xss with
  | nil => simp at hk
  | cons s ss ih =>
    unfold correctAll
    cases k with
    | zero =>
      simp only [List.getElem?_cons_zero, Option.some.injEq] at hk
      subst hk
      simp [he]
    | succ k =>
      have hk' : ss[k]? = some q := by simpa using hk
      cases hs : s.insts with
      | nil => simpa using ih xss k hk'
      | cons x rest => simpa using ih xss.tail k hk'

theorem addOrDrop_get (solve : List (SState nc nlc K) → (Fin nc → K) → List (List K))
    (ss : List (SState nc nlc K)) (delta : Fin nc → K) (hshape : Shape ss (solve ss delta)) (k : ℕ)
    (q : SState nc nlc K) (hk : ss[k]? = some q) (he : q.insts = []) :
    (addOrDropLiquid solve ss delta).1[k]? = some q := by
  cases hb : (addOrDropLiquid solve ss delta).2 with
  | false =>
    rw [rejected_fst solve ss delta hshape hb]; exact hk
  | true =>
    unfold addOrDropLiquid at hb ⊢
    split
    · exact hk
    · rename_i h
      rw [if_neg h] at hb
      simp only at hb ⊢
      split
      · exact correctAll_get ss _ k q hk he
      · rename_i h'; rw [if_neg h'] at hb; simp at hb

/-- **C04 (subsolidus, pure phase).** The seed of a pure phase appears whether or not the solids
could supply it. If they could (accepted and solved) every oxide total is unchanged; if not, the
totals grow by the seed. -/
theorem C04_subsolidus_pure (solve : List (SState nc nlc K) → (Fin nc → K) → List (List K))
    (massin : K) (k : ℕ) (s : Sys nc nlc K) (q : SState nc nlc K) (hk : s.solids[k]? = some q)
    (hpure : q.ph.ems = []) (habs : q.insts = [])
    (hshape : ∀ d, Shape s.solids (solve s.solids d)) :
    let d : Fin nc → K := fun o => q.ph.row.solToOx o * massin
    ∃ s', addPureSub solve massin k s = .added s' ∧
      ((addOrDropLiquid solve s.solids d).2 = true → (∀ o, supplied o s.solids (solve s.solids d) = d o) →
        ∀ o, solidsOxide s'.solids o = solidsOxide s.solids o) ∧
      ((addOrDropLiquid solve s.solids d).2 = false →
        ∀ o, solidsOxide s'.solids o = solidsOxide s.solids o + d o) := by
  simp only
  unfold addPureSub
  simp only [hk]
  have hseed : seed q.ph [] massin = ⟨massin, []⟩ := by simp [seed, hpure]
  rw [hseed]
  refine ⟨_, rfl, ?_, ?_⟩
  · intro hok hex o
    have hget := addOrDrop_get solve s.solids (fun o => q.ph.row.solToOx o * massin) (hshape _) k q
      hk habs
    simp only [setSolid]
    rw [solidsOxide_set _ k q _ hget o, habs]
    have := (C15_accepted_effect solve s.solids _ _ (hshape _) (Prod.ext rfl hok)).2.1 hex o
    simp only [List.map_nil, List.sum_nil, List.map_cons, List.sum_cons, soxide, hpure, if_true]
    linear_combination this
  · intro hno o
    have e := rejected_fst solve s.solids _ (hshape _) hno
    simp only [setSolid]
    rw [e, solidsOxide_set _ k q _ hk o, habs]
    simp only [List.map_nil, List.sum_nil, List.map_cons, List.sum_cons, soxide, hpure, if_true]
    ring

theorem seedOx_eq (p : SPhase nc nlc K) (x : Inst K) (o : Fin nc) (he : p.ems ≠ []) :
    seedOx p x o = soxide p o x := by
  unfold seedOx soxide
  rw [if_neg he]
  simp only [mul_comm]

/-- **C04 (subsolidus, solution).** A solution nucleated without liquid is supplied by the solids:
with a solver that solves the system every oxide total is unchanged, and the seed is one of
`massin/2^n`; if the step gives up the counted assemblage is unchanged. -/
theorem C04_subsolidus_solution (solve : List (SState nc nlc K) → (Fin nc → K) → List (List K))
    (massin lim : K) (fuel k : ℕ) (mSol : List K) (s : Sys nc nlc K) (q : SState nc nlc K)
    (hk : s.solids[k]? = some q) (hsol : q.ph.ems ≠ []) (habs : q.insts = [])
    (hshape : ∀ d, Shape s.solids (solve s.solids d))
    (hex : ∀ d o, supplied o s.solids (solve s.solids d) = d o) :
    (∀ s', addSolnSub solve massin lim fuel k mSol s = .added s' →
      (∀ o, solidsOxide s'.solids o = solidsOxide s.solids o) ∧ s'.liquids = s.liquids ∧
      ∃ n : ℕ, s'.solids[k]? = some { q with insts := [seed q.ph mSol (massin / 2 ^ n)] }) ∧
    (∀ s', addSolnSub solve massin lim fuel k mSol s = .aborted s' → s' = s) := by
  have loop : ∀ (n : ℕ) (m : K) (x : K) (ss : List (SState nc nlc K)),
      addSolnSubLoop solve lim s.solids q.ph mSol n m = some (some (x, ss)) →
      (∃ i : ℕ, x = m / 2 ^ i) ∧ (addOrDropLiquid solve s.solids (seedOx q.ph (seed q.ph mSol x))) =
        (ss, true) := by
    intro n
    induction n with
    | zero => intro m x ss h; simp [addSolnSubLoop] at h
    | succ n ih =>
      intro m x ss h
      unfold addSolnSubLoop at h
      simp only at h
      split at h
      · rename_i hr
        simp only [Option.some.injEq, Prod.mk.injEq] at h
        obtain ⟨rfl, rfl⟩ := h
        exact ⟨⟨0, by simp⟩, Prod.ext rfl hr⟩
      · rename_i hr
        have e := rejected_fst solve s.solids (seedOx q.ph (seed q.ph mSol m)) (hshape _)
          (by simpa using hr)
        split at h
        · simp at h
        · rw [e] at h
          obtain ⟨⟨i, hi⟩, h2⟩ := ih _ _ _ h
          exact ⟨⟨i + 1, by rw [hi, pow_succ, div_div, mul_comm]⟩, h2⟩
  constructor
  · intro s' h
    unfold addSolnSub at h
    simp only [hk] at h
    split at h
    · cases h
    · cases h
    · rename_i x ss hl
      injection h with h
      subst h
      obtain ⟨⟨n, hn⟩, hacc⟩ := loop _ _ _ _ hl
      have hget := addOrDrop_get solve s.solids _ (hshape (seedOx q.ph (seed q.ph mSol x))) k q
        hk habs
      rw [hacc] at hget
      refine ⟨fun o => ?_, rfl, n, ?_⟩
      · simp only [setSolid]
        rw [solidsOxide_set _ k q _ hget o, habs]
        have := (C15_accepted_effect solve s.solids _ _ (hshape _) hacc).2.1 (hex _) o
        rw [seedOx_eq _ _ _ hsol] at this
        simp only [List.map_nil, List.sum_nil, List.map_cons, List.sum_cons]
        linear_combination this
      · simp only [setSolid]
        rw [List.getElem?_set_self, hn]
        by_contra hh
        rw [List.getElem?_eq_none (not_lt.1 hh)] at hget
        cases hget
  · intro s' h
    unfold addSolnSub at h
    simp only [hk] at h
    split at h
    · cases h
    · injection h with h; exact h.symm
    · cases h

/-! ### C43 -/

theorem correctAll_refuses (ss : List (SState nc nlc K)) (xss : List (List K)) (k : ℕ)
    (q : SState nc nlc K) (x : Inst K) (rest : List (Inst K)) (hk : ss[k]? = some q)
    (hsol : q.ph.ems ≠ []) (hq : q.insts = x :: rest) (ht : x.tot = 0) (hc : ∀ c ∈ x.comps, c = 0) :
    (correctAll ss xss).2 = false := by
  induction ss generalizing k xss with
  | nil => simp at hk
  | cons s ss ih =>
    unfold correctAll
    cases k with
    | zero =>
      simp only [List.getElem?_cons_zero, Option.some.injEq] at hk
      subst hk
      have hz : ∀ (cs xs : List K), (∀ c ∈ cs, c = 0) →
          (List.zipWith (fun c s => c * s) cs xs).sum = 0 := by
        intro cs
        induction cs with
        | nil => simp
        | cons c cs ih =>
          intro xs h
          cases xs with
          | nil => simp
          | cons x xs =>
            simp only [List.zipWith_cons_cons, List.sum_cons, h c (by simp), zero_mul, zero_add]
            exact ih xs fun c hc => h c (by simp [hc])
      simp only [hq, correctCopy, hsol, if_false, ht, hz _ _ hc]
      simp
    | succ k =>
      have hk' : ss[k]? = some q := by simpa using hk
      cases hs : s.insts with
      | nil => simpa using ih xss k hk'
      | cons y ys => simp [ih xss.tail k hk']

/-- **C43 (always refused).** When the first of several copies of a solution disappears below the
solidus the redistribution is refused whatever the solver returns, and its matter is lost: each
oxide total falls by exactly what the copy held. -/
theorem C43_first_copy_lost (solve : List (SState nc nlc K) → (Fin nc → K) → List (List K)) (k : ℕ)
    (q : SState nc nlc K) (x : Inst K) (rest : List (Inst K)) (ss : List (SState nc nlc K))
    (hk : ss[k]? = some q) (hsol : q.ph.ems ≠ []) (hq : q.insts = x :: rest) (hrest : rest ≠ [])
    (hpos : ∀ y ∈ rest, y.tot ≠ 0) (hshape : ∀ ss' d, Shape ss' (solve ss' d)) :
    (dropFirstSub solve k q x rest ss).2 = false ∧
    ∀ o, solidsOxide (dropFirstSub solve k q x rest ss).1 o =
      solidsOxide ss o - soxide q.ph o x := by
  have hlt : k < ss.length := by
    by_contra hh
    rw [List.getElem?_eq_none (not_lt.1 hh)] at hk
    cases hk
  set z : Inst K := ⟨0, x.comps.map fun _ => 0⟩ with hz
  set q1 : SState nc nlc K := { q with insts := z :: rest } with hq1
  set delta : Fin nc → K := fun o =>
    - (List.zipWith (fun r c => r.solToOx o * c) q.ph.ems x.comps).sum with hdelta
  have hget : (ss.set k q1)[k]? = some q1 := by rw [List.getElem?_set_self hlt]
  have href := correctAll_refuses (ss.set k q1) (solve (ss.set k q1) delta) k q1 z rest hget hsol
    (by simp [hq1]) rfl (by simp [hz])
  have hno : (addOrDropLiquid solve (ss.set k q1) delta).2 = false := by
    unfold addOrDropLiquid
    split
    · rfl
    · simp [href]
  have e := rejected_fst solve (ss.set k q1) delta (hshape _ _) hno
  have hdef : dropFirstSub solve k q x rest ss =
      ((ss.set k q1).set k { q1 with insts := compact 1 q1.insts, cyl := q1.cyl + 1 }, false) := by
    unfold dropFirstSub
    simp only [hrest, if_false, ← hz, ← hq1, ← hdelta, e, hget, hno]
  rw [hdef]
  refine ⟨rfl, fun o => ?_⟩
  have hcomp : compact 1 q1.insts = rest := by
    simp only [compact, hq1, hz, Nat.lt_one_iff, if_true]
    rw [List.filter_cons_of_neg (by simp), List.filter_eq_self]
    intro y hy
    simpa using hpos y hy
  rw [hcomp, List.set_set, solidsOxide_set _ k q _ hk o, hq]
  simp only [List.map_cons, List.sum_cons, hq1]
  ring

/-- **C43 (last liquid).** When the last liquid disappears its oxides go to the solids if the
redistribution is accepted and exact; otherwise they are lost. Liquid oxides + solid oxides before,
against solid oxides after. -/
theorem C43_last_liquid (tb : Tables nc nlc K)
    (solve : List (SState nc nlc K) → (Fin nc → K) → List (List K)) (l0 : Fin nlc → K)
    (ss : List (SState nc nlc K)) (hshape : ∀ d, Shape ss (solve ss d)) :
    let d : Fin nc → K := fun o => - ∑ i, tb.liqToOx i o * l0 i
    ((dropLastLiquid tb solve l0 ss).2 = true → (∀ o, supplied o ss (solve ss d) = d o) →
      ∀ o, solidsOxide (dropLastLiquid tb solve l0 ss).1 o =
        solidsOxide ss o + ∑ i, l0 i * tb.liqToOx i o) ∧
    ((dropLastLiquid tb solve l0 ss).2 = false → (dropLastLiquid tb solve l0 ss).1 = ss) := by
  simp only
  unfold dropLastLiquid
  constructor
  · intro h hex o
    have := (C15_accepted_effect solve ss _ _ (hshape _) (Prod.ext rfl h)).2.1 hex o
    have e : ∑ i, l0 i * tb.liqToOx i o = ∑ i, tb.liqToOx i o * l0 i :=
      Finset.sum_congr rfl fun _ _ => mul_comm _ _
    rw [e]
    linear_combination this
  · intro h
    exact rejected_fst solve ss _ (hshape _) h

/-! ### C44 -/

/-- **C44 (phantom liquid).** If the solids refuse to supply any liquid, the abandoned attempt leaves
the solids as they were but a liquid of `massin/2^n` times the trial composition and that liquid
mass, for the first `n` whose half is below the limit. -/
theorem C44_phantom_liquid (tb : Tables nc nlc K)
    (solve : List (SState nc nlc K) → (Fin nc → K) → List (List K)) (lim : K) (mLiq : Fin nlc → K)
    (fuel : ℕ) (massin : K) (ss : List (SState nc nlc K))
    (hshape : ∀ d, Shape ss (solve ss d))
    (href : ∀ d, (addOrDropLiquid solve ss d).2 = false) (a : LiqAttempt nc nlc K)
    (h : addLiquidSub tb solve lim mLiq fuel massin ss = some a) :
    a.ok = false ∧ a.solids = ss ∧
    ∃ n : ℕ, massin / 2 ^ (n + 1) < lim ∧ a.liquidMass = massin / 2 ^ n ∧
      ∀ i, a.liq i = mLiq i * (massin / 2 ^ n) := by
  induction fuel generalizing massin with
  | zero => simp [addLiquidSub] at h
  | succ n ih =>
    unfold addLiquidSub at h
    simp only at h
    rw [if_neg (by rw [href]; simp)] at h
    have e := fun d => rejected_fst solve ss d (hshape d) (href d)
    rw [e] at h
    split at h
    · rename_i hl
      simp only [Option.some.injEq] at h
      subst h
      exact ⟨rfl, rfl, 0, by simpa using hl, by simp, by simp⟩
    · obtain ⟨h1, h2, m, h3, h4, h5⟩ := ih _ h
      have es : ∀ i : ℕ, massin / 2 / 2 ^ i = massin / 2 ^ (i + 1) := by
        intro i; rw [pow_succ, div_div, mul_comm]
      refine ⟨h1, h2, m + 1, ?_, ?_, ?_⟩
      · rw [← es]; exact h3
      · rw [← es]; exact h4
      · intro i; rw [← es]; exact h5 i

/-- **C44 (excluded phase).** When nucleation of a solution below the solidus is abandoned the moles
written for its last trial are not zero, and a later saturation evaluation of a phase with those
moles reports affinity 0 whatever its true affinity: it is never considered again. -/
theorem C44_phase_excluded [IsStrictOrderedRing K]
    (solve : List (SState nc nlc K) → (Fin nc → K) → List (List K))
    (lim : K) (ss : List (SState nc nlc K)) (p : SPhase nc nlc K) (mSol : List K) (fuel : ℕ)
    (massin : K) (hm : 0 < massin) (x : Inst K)
    (h : abandonedSeed solve lim ss p mSol fuel massin = some x) :
    x.tot ≠ 0 ∧ ∀ (inc : Bool) (aff : K) (comp : List K) (cyl : ℕ),
      (evalCand inc ⟨.soln aff comp, cyl, x.tot⟩).1 = 0 := by
  have hx : 0 < x.tot := by
    induction fuel generalizing massin ss with
    | zero => simp [abandonedSeed] at h
    | succ n ih =>
      unfold abandonedSeed at h
      simp only at h
      split at h
      · simp at h
      · split at h
        · simp only [Option.some.injEq] at h
          subst h
          unfold seed
          split <;> simpa using hm
        · exact ih _ _ (by positivity) h
  refine ⟨hx.ne', ?_⟩
  intro inc aff comp cyl
  simp [evalCand, hx.ne']

/-! ### Concrete subsolidus assemblage: one solution with two copies and a pure phase. -/

/-- Solver that asks for nothing. -/
def lazySolve : List (SState 2 1 ℚ) → (Fin 2 → ℚ) → List (List ℚ) :=
  fun ss _ => (ss.filter fun q => !q.insts.isEmpty).map fun q => q.ph.ems.map fun _ => 0

def demoSub : List (SState 2 1 ℚ) :=
  [ ⟨⟨⟨![0, 0], ![0]⟩, [⟨![1, 0], ![0]⟩, ⟨![0, 1], ![0]⟩], fun _ => true⟩,
      [⟨1/1000, [1/2000, 1/2000]⟩, ⟨4, [1, 3]⟩], 0⟩ ]

example : ∃ q x rest, demoSub[0]? = some q ∧ q.ph.ems ≠ [] ∧ q.insts = x :: rest ∧ rest ≠ [] ∧
    (∀ y ∈ rest, y.tot ≠ 0) ∧ soxide q.ph 0 x = 1/2000 := by
  refine ⟨_, _, _, rfl, by simp, rfl, by simp, by simp, by simp [soxide]⟩

example (d : Fin 2 → ℚ) : Shape demoSub (lazySolve demoSub d) := by
  simp [Shape, demoSub, lazySolve]

/-- Solver that asks for twice what there is. -/
def greedySolve : List (SState 2 1 ℚ) → (Fin 2 → ℚ) → List (List ℚ) :=
  fun ss _ => (ss.filter fun q => !q.insts.isEmpty).map fun q => q.ph.ems.map fun _ => 2

example (d : Fin 2 → ℚ) : Shape demoSub (greedySolve demoSub d) ∧
    (addOrDropLiquid greedySolve demoSub d).2 = false := by
  constructor
  · simp [Shape, demoSub, greedySolve]
  · simp [addOrDropLiquid, correctAll, correctCopy, demoSub, greedySolve]
    norm_num

example : (addLiquidSub (⟨fun _ _ => 1, fun _ _ => 1⟩ : Tables 2 1 ℚ) greedySolve (1/2)
    (fun _ => 1) 3 1 demoSub).map (fun a => (a.liquidMass, a.ok)) = some (1/2, false) := by
  decide +kernel

example : abandonedSeed greedySolve (1/2) demoSub
    ⟨⟨![0, 0], ![0]⟩, [⟨![1, 0], ![0]⟩, ⟨![0, 1], ![0]⟩], fun _ => true⟩ [1/4, 3/4] 3 1 =
      some ⟨1/2, [1/8, 3/8]⟩ := by
  decide +kernel

/-! ### fO2 buffer (C04, C05 with a buffer) -/

/-- The conversion tables undo each other. -/
def TablesInverse (tb : Tables nc nlc K) : Prop :=
  ∀ (v : Fin nc → K) (o : Fin nc), ∑ j, (∑ i, v i * tb.oxToLiq i j) * tb.liqToOx j o = v o

/-- **C04 (buffer).** Re-speciating the liquid under an fO2 buffer, whatever new oxide amounts the
speciation returns, changes the bulk by exactly what it changes the liquid: bulk minus liquid is
preserved for every oxide, so a balanced system stays balanced. -/
theorem C04_buffer_keeps_balance (tb : Tables nc nlc K) (htb : TablesInverse tb)
    (f : (Fin nc → K) → Fin nc → K) (l : Fin nlc → K) (bulk : Fin nc → K) (o : Fin nc) :
    let r := respeciate tb f l bulk
    r.2 o - ∑ j, r.1 j * tb.liqToOx j o = bulk o - ∑ j, l j * tb.liqToOx j o ∧
    ∑ j, r.1 j * tb.liqToOx j o = f (fun i => ∑ j, l j * tb.liqToOx j i) o := by
  simp only [respeciate]
  rw [htb]
  exact ⟨by ring, rfl⟩

example : TablesInverse demoTb := by
  intro v o
  fin_cases o <;> simp [demoTb, Fin.sum_univ_two]

end Magma.Engine
