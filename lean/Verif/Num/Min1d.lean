import Verif.Prelude

/-!
Model of `min1d`, /repo/sources/nash.c 114-196 (Nash's algorithm 17), and of the loop that calls it in the
linear search of the engine, /repo/sources/silmin.c 1238-1299.

Simplifications: `double` is an ordered field. The objective is an arbitrary function returning `none`
where it reports `notcomp`. `big` is `BIG = sqrt(DBL_MAX)`. The list `vis` of points at which the
objective was called (latest first) is added, to count calls and to speak about visited points.
-/

namespace Magma.Num.Min1d

variable {K : Type} [Field K] [LinearOrder K]

/-- nash.c 144, 151, 166, 183: the value used; an infeasible point counts as `BIG`. -/
def ev (f : K → Option K) (big : K) (x : K) : K := (f x).getD big

/-- Outcome of an inner loop: budget exceeded, or a bracketing triple with the remaining budget. -/
inductive Inner (K : Type)
  | exceeded (st : K) (vis : List K)
  | ok (r : ℕ) (st x0 s0 x1 s1 s2 : K) (vis : List K)

/-- nash.c 148-159 (`pre = true`, the step is enlarged before each trial) and 164-174 (`pre = false`,
enlarged after each success). `r` is `ifnMax - *ifn`. -/
def expand (f : K → Option K) (big : K) (pre : Bool) :
    ℕ → K → K → K → K → K → List K → Inner K
  | 0, st, _, _, x1, _, vis =>
    let st' := if pre then st * (3 / 2) else st
    .exceeded st' ((x1 + st') :: vis)
  | r + 1, st, x0, s0, x1, s1, vis =>
    let st' := if pre then st * (3 / 2) else st
    let x2 := x1 + st'
    let s2 := ev f big x2
    if s2 < s1 then
      expand f big pre r (if pre then st' else st' * (3 / 2)) x1 s1 x2 s2 (x2 :: vis)
    else .ok r st' x0 s0 x1 s1 s2 (x2 :: vis)

/-- The function's result (nash.h): position, step, and on success the minimum value. -/
inductive Res (K : Type)
  | badInitial (vis : List K)
  | exceeded (bb st : K) (vis : List K)
  | success (bb st fmin : K) (vis : List K)
deriving DecidableEq, Repr

/-- nash.c 140-191: the outer loop; `k` is fuel (never exhausted, see `outer_some`), `r` the remaining
budget. -/
def outer (f : K → Option K) (big reltest : K) : ℕ → ℕ → K → K → K → List K → Option (Res K)
  | 0, _, _, _, _, _ => none
  | k + 1, r, st, x1, s0, vis =>
    let x0 := x1
    let bb := x0
    let x1 := x0 + st
    let s1 := ev f big x1
    let vis := x1 :: vis
    match r with
    | 0 => some (.exceeded bb st vis)
    | r + 1 =>
      let inner :=
        if s1 < s0 then expand f big true r st x0 s0 x1 s1 vis
        else expand f big false r (st * (-(1 / 4))) x1 s1 x0 s0 vis
      match inner with
      | .exceeded st vis => some (.exceeded bb st vis)
      | .ok r st x0 s0 x1 s1 s2 vis =>
        let tt0 := x0 - x1
        let tt1 := (s0 - s1) * st
        let tt2 := (s2 - s1) * tt0
        let st' := if tt1 ≠ tt2 then
          1 / 2 * ((tt2 / (tt2 - tt1)) * tt0 - (tt1 / (tt2 - tt1)) * st) else st
        let xii := x1 + st'
        if tt1 ≠ tt2 ∧ reltest < |xii - x1| then
          let fii := ev f big xii
          match r with
          | 0 => some (.exceeded bb st' (xii :: vis))
          | r + 1 =>
            let x1' := if fii < s1 then xii else x1
            let s1' := if fii < s1 then fii else s1
            if reltest < |bb - x1'| then outer f big reltest k r st' x1' s1' (xii :: vis)
            else some (.success bb st' s1' (bb :: xii :: vis))
        else if reltest < |bb - x1| then outer f big reltest k r st' x1 s1 vis
        else some (.success bb st' s1 (bb :: vis))

/-- nash.c 123-196. `maxEval` is the budget passed in `*ifn`. -/
def min1d (f : K → Option K) (big reltest : K) (maxEval : ℕ) (bb st : K) : Option (Res K) :=
  match f bb with
  | none => some (.badInitial [bb])
  | some s0 => outer f big reltest (maxEval + 1) (maxEval - 1) st bb s0 [bb]

/-! ### Invariants -/

/-- `x` was visited and its value is `s`. -/
def Known (f : K → Option K) (big : K) (vis : List K) (x s : K) : Prop := x ∈ vis ∧ s = ev f big x

theorem expand_spec (f : K → Option K) (big : K) (pre : Bool) (r : ℕ) :
    ∀ (st x0 s0 x1 s1 : K) (vis : List K), Known f big vis x1 s1 →
      match expand f big pre r st x0 s0 x1 s1 vis with
      | .exceeded _ v => v.length = vis.length + r + 1 ∧ vis ⊆ v
      | .ok r' _ _ _ x1' s1' s2' v => (v.length + r' = vis.length + r ∧ r' ≤ r) ∧ vis ⊆ v ∧
          Known f big v x1' s1' ∧ s1' ≤ s1 ∧ s1' ≤ s2' := by
  induction r with
  | zero =>
    intro st x0 s0 x1 s1 vis hk
    simp only [expand]
    exact ⟨by simp, fun y hy => List.mem_cons_of_mem _ hy⟩
  | succ r ih =>
    intro st x0 s0 x1 s1 vis hk
    by_cases hlt : ev f big (x1 + if pre then st * (3 / 2) else st) < s1
    · simp only [expand, hlt, if_true]
      have := ih (if pre then (if pre then st * (3 / 2) else st) else
        (if pre then st * (3 / 2) else st) * (3 / 2)) x1 s1 (x1 + if pre then st * (3 / 2) else st)
        (ev f big (x1 + if pre then st * (3 / 2) else st))
        ((x1 + if pre then st * (3 / 2) else st) :: vis) ⟨by simp, rfl⟩
      split at this
      · rename_i h
        rw [h]
        simp only [List.length_cons] at this
        exact ⟨by omega, fun y hy => this.2 (List.mem_cons_of_mem _ hy)⟩
      · rename_i h
        rw [h]
        simp only [List.length_cons] at this
        exact ⟨by omega, fun y hy => this.2.1 (List.mem_cons_of_mem _ hy), this.2.2.1,
          this.2.2.2.1.trans hlt.le, this.2.2.2.2⟩
    · simp only [expand, hlt, if_false]
      exact ⟨⟨by simp; omega, by omega⟩, fun y hy => List.mem_cons_of_mem _ hy,
        ⟨List.mem_cons_of_mem _ hk.1, hk.2⟩, le_refl _, not_lt.mp hlt⟩

/-- What a finished search guarantees: `s0` is the value at the start of this part. -/
def Good (f : K → Option K) (big reltest s0 : K) (n : ℕ) : Res K → Prop
  | .badInitial _ => False
  | .exceeded bb _ vis => vis.length = n + 1 ∧ bb ∈ vis ∧ ev f big bb ≤ s0
  | .success bb _ fmin vis => vis.length ≤ n + 1 ∧ vis.head? = some bb ∧ ev f big bb ≤ s0 ∧
      fmin ≤ ev f big bb ∧ ∃ x ∈ vis, fmin = ev f big x ∧ |bb - x| ≤ reltest

theorem Good.mono {f : K → Option K} {big reltest s0 s0' : K} {n : ℕ} {r : Res K}
    (h : Good f big reltest s0 n r) (hs : s0 ≤ s0') : Good f big reltest s0' n r := by
  cases r with
  | badInitial _ => exact h
  | exceeded bb st vis => exact ⟨h.1, h.2.1, h.2.2.trans hs⟩
  | success bb st fm vis => exact ⟨h.1, h.2.1, h.2.2.1.trans hs, h.2.2.2⟩

theorem outer_spec (f : K → Option K) (big reltest : K) (k : ℕ) :
    ∀ (r : ℕ) (st x1 s0 : K) (vis : List K), r < k → Known f big vis x1 s0 →
      ∃ res, outer f big reltest k r st x1 s0 vis = some res ∧
        Good f big reltest s0 (vis.length + r) res := by
  induction k with
  | zero => intro r st x1 s0 vis hr; omega
  | succ k ih =>
    intro r st x1 s0 vis hr hk
    rcases r with _ | r
    · exact ⟨_, rfl, by simp, List.mem_cons_of_mem _ hk.1, hk.2.ge⟩
    · have hkv : Known f big ((x1 + st) :: vis) x1 s0 := ⟨List.mem_cons_of_mem _ hk.1, hk.2⟩
      have hkn : Known f big ((x1 + st) :: vis) (x1 + st) (ev f big (x1 + st)) := ⟨by simp, rfl⟩
      -- the inner loops
      have hinner : ∀ inner, inner = (if ev f big (x1 + st) < s0 then
            expand f big true r st x1 s0 (x1 + st) (ev f big (x1 + st)) ((x1 + st) :: vis)
          else expand f big false r (st * (-(1 / 4))) (x1 + st) (ev f big (x1 + st)) x1 s0
            ((x1 + st) :: vis)) →
          match inner with
          | .exceeded _ v => v.length = vis.length + r + 2 ∧ vis ⊆ v
          | .ok r' _ _ _ x1' s1' _ v => (v.length + r' = vis.length + r + 1 ∧ r' ≤ r) ∧ vis ⊆ v ∧
              Known f big v x1' s1' ∧ s1' ≤ s0 := by
        intro inner hi
        by_cases hlt : ev f big (x1 + st) < s0
        · rw [if_pos hlt] at hi
          have := expand_spec f big true r st x1 s0 (x1 + st) (ev f big (x1 + st))
            ((x1 + st) :: vis) hkn
          rw [← hi] at this
          cases inner with
          | exceeded st' v =>
            simp only [List.length_cons] at this
            exact ⟨by omega, fun y hy => this.2 (List.mem_cons_of_mem _ hy)⟩
          | ok r' a b c d e g v =>
            simp only [List.length_cons] at this
            exact ⟨by omega, fun y hy => this.2.1 (List.mem_cons_of_mem _ hy), this.2.2.1,
              this.2.2.2.1.trans hlt.le⟩
        · rw [if_neg hlt] at hi
          have := expand_spec f big false r (st * (-(1 / 4))) (x1 + st) (ev f big (x1 + st)) x1 s0
            ((x1 + st) :: vis) hkv
          rw [← hi] at this
          cases inner with
          | exceeded st' v =>
            simp only [List.length_cons] at this
            exact ⟨by omega, fun y hy => this.2 (List.mem_cons_of_mem _ hy)⟩
          | ok r' a b c d e g v =>
            simp only [List.length_cons] at this
            exact ⟨by omega, fun y hy => this.2.1 (List.mem_cons_of_mem _ hy), this.2.2.1,
              this.2.2.2.1⟩
      simp only [outer]
      generalize hi : (if ev f big (x1 + st) < s0 then
            expand f big true r st x1 s0 (x1 + st) (ev f big (x1 + st)) ((x1 + st) :: vis)
          else expand f big false r (st * (-(1 / 4))) (x1 + st) (ev f big (x1 + st)) x1 s0
            ((x1 + st) :: vis)) = inner
      have hin := hinner inner hi.symm
      cases inner with
      | exceeded st' v =>
        refine ⟨_, rfl, ?_, hin.2 hk.1, hk.2.ge⟩
        have := hin.1
        omega
      | ok r' st' y0 t0 y1 t1 t2 v =>
        obtain ⟨hlen, hsub, hky, hle⟩ := hin
        simp only
        set stn := if (t0 - t1) * st' ≠ (t2 - t1) * (y0 - y1) then
          1 / 2 * ((t2 - t1) * (y0 - y1) / ((t2 - t1) * (y0 - y1) - (t0 - t1) * st') * (y0 - y1) -
            (t0 - t1) * st' / ((t2 - t1) * (y0 - y1) - (t0 - t1) * st') * st') else st' with hstn
        by_cases hc : (t0 - t1) * st' ≠ (t2 - t1) * (y0 - y1) ∧ reltest < |y1 + stn - y1|
        · rw [if_pos hc]
          rcases r' with _ | r'
          · refine ⟨_, rfl, ?_, List.mem_cons_of_mem _ (hsub hk.1), hk.2.ge⟩
            simp only [List.length_cons]
            omega
          · simp only
            -- the new best point
            have hbest : ∃ x1' s1', x1' = (if ev f big (y1 + stn) < t1 then y1 + stn else y1) ∧
                s1' = (if ev f big (y1 + stn) < t1 then ev f big (y1 + stn) else t1) ∧
                Known f big ((y1 + stn) :: v) x1' s1' ∧ s1' ≤ s0 := by
              refine ⟨_, _, rfl, rfl, ?_⟩
              by_cases hb : ev f big (y1 + stn) < t1
              · simp only [hb, if_true]
                exact ⟨⟨by simp, rfl⟩, hb.le.trans hle⟩
              · simp only [hb, if_false]
                exact ⟨⟨List.mem_cons_of_mem _ hky.1, hky.2⟩, hle⟩
            obtain ⟨x1', s1', hx, hs, hkn', hles⟩ := hbest
            rw [← hx, ← hs]
            by_cases ht : reltest < |x1 - x1'|
            · rw [if_pos ht]
              obtain ⟨res, hres, hg⟩ := ih r' stn x1' s1' ((y1 + stn) :: v) (by omega) hkn'
              refine ⟨res, hres, ?_⟩
              have : ((y1 + stn) :: v).length + r' = vis.length + (r + 1) := by
                simp only [List.length_cons]; omega
              rw [this] at hg
              exact hg.mono hles
            · rw [if_neg ht]
              refine ⟨_, rfl, ?_, rfl, hk.2.ge, ?_, x1', ?_, hkn'.2, not_lt.mp ht⟩
              · simp only [List.length_cons]
                omega
              · exact hles.trans hk.2.le
              · exact List.mem_cons_of_mem _ hkn'.1
        · rw [if_neg hc]
          by_cases ht : reltest < |x1 - y1|
          · rw [if_pos ht]
            obtain ⟨res, hres, hg⟩ := ih r' stn y1 t1 v (by omega) hky
            refine ⟨res, hres, ?_⟩
            have : v.length + r' = vis.length + (r + 1) := by omega
            rw [this] at hg
            exact hg.mono hle
          · rw [if_neg ht]
            refine ⟨_, rfl, ?_, rfl, hk.2.ge, ?_, y1, ?_, hky.2, not_lt.mp ht⟩
            · simp only [List.length_cons]
              omega
            · exact hle.trans hk.2.le
            · exact List.mem_cons_of_mem _ hky.1

/-! ### C19 -/

/-- The minimiser always returns; if the initial guess is infeasible it says so after one call of the
objective, and otherwise it makes at most `maxEval + 1` calls (budget at least 1) up to and including the
last counted one, plus the final one on success. The position returned is a visited point whose value does
not exceed the value at the initial guess, and on success the minimum reported is the value at a visited
point at most `reltest` from the position returned and the last call of the objective was made at the
position returned (so that whatever the objective stores on the side belongs to that position). -/
theorem C19_min1d (f : K → Option K) (big reltest : K) (maxEval : ℕ) (hm : 1 ≤ maxEval) (bb st : K) :
    (f bb = none ∧ min1d f big reltest maxEval bb st = some (.badInitial [bb])) ∨
    ∃ s0, f bb = some s0 ∧
      ((∃ b s vis, min1d f big reltest maxEval bb st = some (.exceeded b s vis) ∧
        vis.length = maxEval + 1 ∧ b ∈ vis ∧ ev f big b ≤ s0) ∨
      (∃ b s fmin vis, min1d f big reltest maxEval bb st = some (.success b s fmin vis) ∧
        vis.length ≤ maxEval + 1 ∧ vis.head? = some b ∧ ev f big b ≤ s0 ∧ fmin ≤ ev f big b ∧
        ∃ x ∈ vis, fmin = ev f big x ∧ |b - x| ≤ reltest)) := by
  unfold min1d
  cases hf : f bb with
  | none => exact Or.inl ⟨rfl, rfl⟩
  | some s0 =>
    right
    refine ⟨s0, rfl, ?_⟩
    obtain ⟨res, hres, hg⟩ := outer_spec f big reltest (maxEval + 1) (maxEval - 1) st bb s0 [bb]
      (by omega) ⟨by simp, by simp [ev, hf]⟩
    simp only
    rw [hres]
    have hl : ([bb] : List K).length + (maxEval - 1) = maxEval := by
      simp only [List.length_cons, List.length_nil]; omega
    rw [hl] at hg
    cases res with
    | badInitial _ => exact absurd hg id
    | exceeded b s vis => exact Or.inl ⟨b, s, vis, rfl, hg⟩
    | success b s fm vis => exact Or.inr ⟨b, s, fm, vis, rfl, hg⟩

/-- If the initial value is below `BIG`, the position returned and the point where the reported minimum
was found are feasible points. -/
theorem C19_feasible (f : K → Option K) (big reltest : K) (maxEval : ℕ) (hm : 1 ≤ maxEval) (bb st s0 : K)
    (h0 : f bb = some s0) (hbig : s0 < big) :
    (∀ b s vis, min1d f big reltest maxEval bb st = some (.exceeded b s vis) →
      ∃ v, f b = some v ∧ v ≤ s0) ∧
    (∀ b s fmin vis, min1d f big reltest maxEval bb st = some (.success b s fmin vis) →
      ∃ v, f b = some v ∧ fmin ≤ v ∧ v ≤ s0 ∧ ∃ x, f x = some fmin ∧ |b - x| ≤ reltest) := by
  have key : ∀ x, ev f big x ≤ s0 → f x = some (ev f big x) := by
    intro x hx
    cases hfx : f x with
    | none =>
      rw [ev, hfx] at hx
      exact absurd hbig (not_lt.mpr hx)
    | some v => simp [ev, hfx]
  have hh := C19_min1d f big reltest maxEval hm bb st
  constructor
  · intro b s vis hr
    rcases hh with ⟨h, -⟩ | ⟨t0, ht, ⟨b', s', v', hr', -, -, hle⟩ | ⟨b', s', fm, v', hr', -⟩⟩
    · rw [h0] at h; cases h
    · rw [h0] at ht; cases ht
      rw [hr] at hr'; cases hr'
      exact ⟨_, key _ hle, hle⟩
    · rw [hr] at hr'; cases hr'
  · intro b s fm vis hr
    rcases hh with ⟨h, -⟩ | ⟨t0, ht, ⟨b', s', v', hr', -⟩ |
      ⟨b', s', fm', v', hr', -, -, hle, hfm, x, -, hx, hd⟩⟩
    · rw [h0] at h; cases h
    · rw [hr] at hr'; cases hr'
    · rw [h0] at ht; cases ht
      rw [hr] at hr'; cases hr'
      refine ⟨_, key _ hle, hfm, hle, x, ?_, hd⟩
      rw [hx]
      exact key x (hx ▸ hfm.trans hle)

/-! ### The caller in the linear search, silmin.c 1238-1299 -/

/-- How the linear search ended: the step applied, and `last`, the step at which the objective was called
last (its call leaves the buffer correction of *that* step in `constraints`). -/
inductive Search (K : Type)
  | found (lambda pTotal last : K)
  | zero (lambda last : K)
  | maxIter (lambda last : K)
deriving DecidableEq, Repr

/-- silmin.c 1244-1265: `lambda` starts at 1 and is halved while `min1d` rejects it as infeasible; below
`DBL_EPSILON` the search gives up and keeps that `lambda`. `fuel` bounds the number of halvings. `st` is
`stepSize`, unchanged by a rejected start. -/
def search (f : K → Option K) (big reltest eps : K) (maxEval : ℕ) (st : K) :
    ℕ → K → Option (Search K)
  | 0, _ => none
  | n + 1, lambda =>
    match min1d f big reltest maxEval lambda st with
    | none => none
    | some (.badInitial _) =>
      if lambda / 2 < eps then some (.zero (lambda / 2) lambda)
      else search f big reltest eps maxEval st n (lambda / 2)
    | some (.exceeded b _ vis) => some (.maxIter b (vis.headD lambda))
    | some (.success b _ fm vis) => some (.found b fm (vis.headD lambda))

variable [IsStrictOrderedRing K]

/-- `x` is one of 1, 1/2, 1/4, ... -/
def Half (lambda x : K) : Prop := ∃ i : ℕ, x = lambda / 2 ^ i

/-- The step applied by the linear search is feasible, and its energy does not exceed the energy at the
first feasible one of 1, 1/2, 1/4, ... - or every one of these down to machine epsilon was infeasible, and
then the step applied is *not* checked (it is below epsilon). -/
theorem C47_step_feasible (f : K → Option K) (big reltest eps : K) (maxEval : ℕ) (hm : 1 ≤ maxEval)
    (hbig : ∀ x v, f x = some v → v < big) (st : K) (n : ℕ) :
    ∀ lambda res, 0 < lambda → search f big reltest eps maxEval st n lambda = some res →
      match res with
      | .found b p last => last = b ∧ ∃ x s v, Half lambda x ∧ f x = some s ∧ f b = some v ∧ p ≤ v ∧ v ≤ s ∧
          (∀ i : ℕ, x < lambda / 2 ^ i → f (lambda / 2 ^ i) = none)
      | .maxIter b _ => ∃ x s v, Half lambda x ∧ f x = some s ∧ f b = some v ∧ v ≤ s ∧
          (∀ i : ℕ, x < lambda / 2 ^ i → f (lambda / 2 ^ i) = none)
      | .zero b last => last = 2 * b ∧ b < eps ∧ ∃ j : ℕ, b = lambda / 2 ^ (j + 1) ∧ ∀ i ≤ j, f (lambda / 2 ^ i) = none := by
  induction n with
  | zero => intro lambda res _ h; simp [search] at h
  | succ n ih =>
    intro lambda res hl h
    rw [search] at h
    cases hf : f lambda with
    | none =>
      have hb : min1d f big reltest maxEval lambda st = some (.badInitial [lambda]) := by
        simp [min1d, hf]
      rw [hb] at h
      simp only at h
      split_ifs at h with hc
      · cases h
        refine ⟨by ring, hc, 0, by simp, fun i hi => ?_⟩
        have : i = 0 := by omega
        subst this
        simpa using hf
      · have hdiv : ∀ i : ℕ, lambda / 2 / 2 ^ i = lambda / 2 ^ (i + 1) := fun i => by
          rw [pow_succ, div_div]; ring
        have hrec := ih (lambda / 2) res (by linarith) h
        cases res with
        | found b p last =>
          obtain ⟨h0, x, s, v, ⟨i, hi⟩, h1, h2, h3, h4, h5⟩ := hrec
          refine ⟨h0, x, s, v, ⟨i + 1, by rw [hi, hdiv]⟩, h1, h2, h3, h4, fun j hj => ?_⟩
          rcases j with _ | j
          · simpa using hf
          · rw [← hdiv] at hj ⊢; exact h5 j hj
        | maxIter b last =>
          obtain ⟨x, s, v, ⟨i, hi⟩, h1, h2, h4, h5⟩ := hrec
          refine ⟨x, s, v, ⟨i + 1, by rw [hi, hdiv]⟩, h1, h2, h4, fun j hj => ?_⟩
          rcases j with _ | j
          · simpa using hf
          · rw [← hdiv] at hj ⊢; exact h5 j hj
        | zero b last =>
          obtain ⟨h0, h1, j, h2, h3⟩ := hrec
          refine ⟨h0, h1, j + 1, by rw [h2, hdiv], fun i hi => ?_⟩
          rcases i with _ | i
          · simpa using hf
          · rw [← hdiv]; exact h3 i (by omega)
    | some s0 =>
      have hfe := C19_feasible f big reltest maxEval hm lambda st s0 hf (hbig _ _ hf)
      rcases C19_min1d f big reltest maxEval hm lambda st with ⟨hn, -⟩ | ⟨t0, -, hcase⟩
      · rw [hf] at hn; cases hn
      · rcases hcase with ⟨b, s, vis, hr, -⟩ | ⟨b, s, fm, vis, hr, -, hhd, -⟩
        · rw [hr] at h
          cases h
          obtain ⟨v, hv, hle⟩ := hfe.1 b s vis hr
          refine ⟨lambda, s0, v, ⟨0, by simp⟩, hf, hv, hle, fun i hi => ?_⟩
          exfalso
          have h2 : (1 : K) ≤ 2 ^ i := one_le_pow₀ (by norm_num)
          exact absurd hi (not_lt.mpr (div_le_self hl.le h2))
        · rw [hr] at h
          cases h
          obtain ⟨v, hv, h1, h2, -⟩ := hfe.2 b s fm vis hr
          refine ⟨by cases vis <;> simp_all, lambda, s0, v, ⟨0, by simp⟩, hf, hv, h1, h2, fun i hi => ?_⟩
          exfalso
          have h2 : (1 : K) ≤ 2 ^ i := one_le_pow₀ (by norm_num)
          exact absurd hi (not_lt.mpr (div_le_self hl.le h2))

/-- With a positive lower limit (the code's `DBL_EPSILON`) the halving loop ends. -/
theorem C47_terminates [Archimedean K] (f : K → Option K) (big reltest eps : K) (heps : 0 < eps)
    (maxEval : ℕ) (hm : 1 ≤ maxEval) (st lambda : K) :
    ∃ n res, search f big reltest eps maxEval st n lambda = some res := by
  obtain ⟨N, hN⟩ : ∃ N : ℕ, lambda / 2 ^ N < eps := by
    obtain ⟨N, hN⟩ := pow_unbounded_of_one_lt (lambda / eps) (one_lt_two : (1 : K) < 2)
    refine ⟨N, ?_⟩
    rw [div_lt_iff₀ heps] at hN
    rw [div_lt_iff₀ (by positivity)]
    linarith
  induction N generalizing lambda with
  | zero =>
    refine ⟨1, ?_⟩
    rw [search]
    rcases C19_min1d f big reltest maxEval hm lambda st with ⟨-, hr⟩ |
      ⟨t0, -, ⟨b, s, vis, hr, -⟩ | ⟨b, s, fm, vis, hr, -⟩⟩
    · rw [hr]
      have : lambda / 2 < eps := by
        rw [pow_zero, div_one] at hN
        rcases le_or_gt lambda 0 with h | h <;> linarith
      simp only [this, if_true]
      exact ⟨_, rfl⟩
    · rw [hr]; exact ⟨_, rfl⟩
    · rw [hr]; exact ⟨_, rfl⟩
  | succ N ih =>
    have hN' : lambda / 2 / 2 ^ N < eps := by rw [div_div, ← pow_succ']; exact hN
    obtain ⟨n, res, hres⟩ := ih (lambda / 2) hN'
    refine ⟨n + 1, ?_⟩
    rw [search]
    rcases C19_min1d f big reltest maxEval hm lambda st with ⟨-, hr⟩ |
      ⟨t0, -, ⟨b, s, vis, hr, -⟩ | ⟨b, s, fm, vis, hr, -⟩⟩
    · rw [hr]
      simp only
      split_ifs
      · exact ⟨_, rfl⟩
      · exact ⟨res, hres⟩
    · rw [hr]; exact ⟨_, rfl⟩
    · rw [hr]; exact ⟨_, rfl⟩

/-! ### Concrete cases -/

/-- A parabola with its minimum at 3, feasible on [0, 10]. -/
def exF (x : ℚ) : Option ℚ := if 0 ≤ x ∧ x ≤ 10 then some ((x - 3) ^ 2 + 1) else none

example : min1d exF 1000 (1/100) 50 1 (1/10) = some (.success 3 0 1
    [3, 773/256, 187/64, 3, 2699/640, 197/64, 371/160, 29/16, 59/40, 5/4, 11/10, 1]) := by
  decide +kernel

/-- With a budget of 3 the initial position comes back although better points were visited. -/
example : min1d exF 1000 (1/100) 3 1 (1/10) = some (.exceeded 1 (9/40) [59/40, 5/4, 11/10, 1]) ∧
    (exF (59/40)).getD 0 < (exF 1).getD 0 := by decide +kernel

/-- The initial point is outside the feasible region. -/
example : min1d exF 1000 (1/100) 3 (-1) (1/10) = some (.badInitial [-1]) := by decide +kernel

/-- The whole search: the minimum at 3 is found from the start 1, step 1/10. -/
example : search exF 1000 (1/100) (1/1000) 50 (1/10) 10 1 = some (.found 3 1 3) := by decide +kernel

/-- Feasible at 0 and from 3/4 to 2, increasing: every step makes things worse. -/
def exG (x : ℚ) : Option ℚ :=
  if x = 0 then some 0 else if 3 / 4 ≤ x ∧ x ≤ 2 then some x else none

/-- The energy after the step is not compared with the energy before it (`lambda = 0`): the search reports
success with a step whose energy is above the energy of the state it started from. -/
theorem C47_energy_may_rise : ∃ b p : ℚ,
    search exG 1000 (1/100) (1/1000) 50 (1/10) 10 1 = some (.found b p b) ∧
    exG 0 = some 0 ∧ 0 < p ∧ ∃ v, exG b = some v ∧ 0 < v :=
  ⟨1655602669691825056169097/2194436163293876880932864,
    11556315153722947735789799788723859832998141634132214599 /
      15398288486888041268904583883975312208540123469992427520, by decide +kernel, by decide +kernel,
    by decide +kernel, 1655602669691825056169097/2194436163293876880932864, by decide +kernel,
    by decide +kernel⟩

/-- When the budget runs out the objective was last called at a step different from the one applied. -/
theorem C47_stale_correction :
    search exG 1000 (1/100) (1/1000) 3 (1/10) 10 1 = some (.maxIter 1 (15/16)) := by decide +kernel

/-- Nothing but 0 feasible: the step 1/16 is applied without having been tried. -/
example : search (fun x => if x = 0 then some 0 else none) (1000 : ℚ) (1/100) (1/10) 3 (1/10) 10 1 =
    some (.zero (1/16) (1/8)) := by decide +kernel

example : (∀ x v, exG x = some v → v < 1000) ∧ (∀ x v, exF x = some v → v < 1000) := by
  constructor
  · intro x v h
    unfold exG at h
    split_ifs at h with h1 h2
    · cases h; norm_num
    · cases h; linarith [h2.2]
  · intro x v h
    unfold exF at h
    split_ifs at h with h1
    cases h
    nlinarith [h1.1, h1.2]

end Magma.Num.Min1d
