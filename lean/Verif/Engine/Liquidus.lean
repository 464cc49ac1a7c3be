import Verif.Prelude

/-!
Model of `liquidus`, /repo/sources/liquidus.c 121-343, and of its caller's loop
`while (!liquidus());` (/repo/src/melts_interface.cpp 846-874).

The function is a state machine: its `static` variables `curStep`, `hasSupersaturation`, `tState`,
`tInterval` survive between calls. Simplifications: `double` is an ordered field;
`evaluateSaturationState` is a function `sat` of the temperature (`true` = supersaturated with some
admitted phase), i.e. for a fixed bulk composition and pressure; the redistribution of iron at a buffer
(250-262) is subsumed in it; printing is dropped.
-/

namespace Magma.Engine.Liquidus

variable {K : Type} [Field K] [LinearOrder K]

/-- liquidus.c 124-126. -/
inductive Step
  | checkCondition
  | changeTP
  | checkSaturation
  | updateSystem
deriving DecidableEq

/-- `meltsStatus.status` values set here (/repo/includes/status.h). -/
inductive Status
  | none
  | success
  | maxT
  | minT
  | multiple
deriving DecidableEq

/-- The statics of the function, the temperature, and the status. `tState = none` models -1. -/
structure St (K : Type) where
  curStep : Step
  hasSup : Bool
  tState : Option Bool
  tInterval : K
  T : K
  status : Status
deriving DecidableEq

/-- liquidus.c 199-341: one call. `multiple` is the test of line 202 (solids or several liquids
present). Returns the function's result (`true` = finished). -/
def call (multiple : Bool) (sat : K → Bool) (s : St K) : Bool × St K :=
  match s.curStep with
  | .checkCondition =>
    if multiple then (true, { s with status := .multiple, curStep := .checkCondition })
    else (false, { s with curStep := .changeTP })
  | .changeTP => (false, { s with curStep := .checkSaturation })
  | .checkSaturation => (false, { s with hasSup := sat s.T, curStep := .updateSystem })
  | .updateSystem =>
    match s.tState with
    | none =>
      let d : K := if s.hasSup then 50 else -50
      let T := s.T + d
      if 2500 < T then
        (true, { s with tState := some s.hasSup, tInterval := d, T := T, status := .maxT })
      else if T < 500 then
        (true, { s with tState := some s.hasSup, tInterval := d, T := T, status := .minT })
      else (false, { s with tState := some s.hasSup, tInterval := d, T := T,
                            curStep := .checkCondition })
    | some b =>
      let d := if b ≠ s.hasSup then s.tInterval * (-(1 / 2)) else s.tInterval
      if 1 / 10 < |d| then
        (false, { s with tState := some s.hasSup, tInterval := d, T := s.T + d,
                         curStep := .checkCondition })
      else (true, { s with tState := none, tInterval := d, status := .success,
                           curStep := .checkCondition })

/-- The caller's loop `while (!liquidus());`, with the number of calls it makes; `none` if it has not
returned after `fuel` calls. -/
def run (multiple : Bool) (sat : K → Bool) : ℕ → St K → Option (ℕ × St K)
  | 0, _ => none
  | n + 1, s =>
    let r := call multiple sat s
    if r.1 then some (1, r.2)
    else (run multiple sat n r.2).map fun q => (q.1 + 1, q.2)

/-- `k` calls, whatever they return. -/
def calls (multiple : Bool) (sat : K → Bool) : ℕ → St K → St K
  | 0, s => s
  | n + 1, s => calls multiple sat n (call multiple sat s).2

/-- The statics before a search: the initial values (127-128), or those left by a successful search. -/
def Fresh (s : St K) : Prop := s.curStep = .checkCondition ∧ s.tState = none

/-- Specification: `TL` is the liquidus temperature for `sat`. -/
def IsLiquidus (sat : K → Bool) (TL : K) : Prop := ∀ T, sat T = true ↔ T < TL

/-! ### One round of four calls -/

theorem run_next (m : Bool) (sat : K → Bool) (n : ℕ) (s s' : St K)
    (h : call m sat s = (false, s')) :
    run m sat (n + 1) s = (run m sat n s').map fun q => (q.1 + 1, q.2) := by
  simp [run, h]

/-- Rounds: state at the end of a round that did not finish. -/
theorem run_round (sat : K → Bool) (n : ℕ) (s : St K) (hs : s.curStep = .checkCondition) :
    run false sat (n + 4) s =
      (let u : St K := { s with hasSup := sat s.T, curStep := .updateSystem }
       let r := call false sat u
       if r.1 then some (4, r.2) else (run false sat n r.2).map fun q => (q.1 + 4, q.2)) := by
  obtain ⟨c, h, t, d, T, st⟩ := s
  simp only at hs
  subst hs
  rw [run_next false sat (n + 3) _ ⟨.changeTP, h, t, d, T, st⟩ (by simp [call]),
    run_next false sat (n + 2) _ ⟨.checkSaturation, h, t, d, T, st⟩ (by simp [call]),
    run_next false sat (n + 1) _ ⟨.updateSystem, sat T, t, d, T, st⟩ (by simp [call]), run]
  cases hq : (call false sat (⟨.updateSystem, sat T, t, d, T, st⟩ : St K)).1 <;>
    simp [hq, Option.map_map, Function.comp_def]

theorem run_mono (m : Bool) (sat : K → Bool) (n k : ℕ) (s : St K) (r : ℕ × St K)
    (h : run m sat n s = some r) : run m sat (n + k) s = some r := by
  induction n generalizing s r with
  | zero => simp [run] at h
  | succ n ih =>
    rw [show n + 1 + k = n + k + 1 by omega, run]
    rw [run] at h
    split_ifs at h ⊢ with hc
    · exact h
    · rw [Option.map_eq_some_iff] at h ⊢
      obtain ⟨a, ha, he⟩ := h
      exact ⟨a, ih _ _ ha, he⟩

/-! ### C17 -/

/-- State of the search between rounds: direction and interval agree; the previous point `T - d` was
on the side that `b` tells; `m` more steps are enough to cross the liquidus. -/
structure Search (TL : K) (d : K) (m : ℕ) (s : St K) : Prop where
  step : s.curStep = .checkCondition
  state : ∃ b, s.tState = some b ∧ s.tInterval = (if b then d else -d) ∧
    (if b = true then s.T - d < TL ∧ TL ≤ s.T - d + m * d
      else TL ≤ s.T + d ∧ s.T + d - m * d < TL)

variable [IsStrictOrderedRing K]

theorem search_step (sat : K → Bool) (TL : K) (hL : IsLiquidus sat TL) (d : K) (hd : 1 / 10 < d)
    (m : ℕ) (s : St K) (h : Search TL d (m + 1) s) :
    let u : St K := { s with hasSup := sat s.T, curStep := .updateSystem }
    (∃ m', m = m' + 1 ∧ (call false sat u).1 = false ∧ Search TL d m (call false sat u).2) ∨
    (1 / 10 < d / 2 ∧ (call false sat u).1 = false ∧ Search TL (d / 2) 2 (call false sat u).2) ∨
    (d / 2 ≤ 1 / 10 ∧ (call false sat u).1 = true ∧ (call false sat u).2.status = .success ∧
      Fresh (call false sat u).2 ∧
      (((call false sat u).2.T < TL ∧ TL ≤ (call false sat u).2.T + d) ∨
       (TL ≤ (call false sat u).2.T ∧ (call false sat u).2.T < TL + d))) := by
  obtain ⟨hstep, b, hb, hi, hpos⟩ := h
  obtain ⟨c, hsup, t, ti, T, st⟩ := s
  simp only at hb hi hpos hstep
  subst hb
  subst hi
  have hd0 : 0 < d := lt_trans (by norm_num) hd
  have hLT := hL T
  intro u
  cases b with
  | true =>
    simp only [if_true, Nat.cast_add, Nat.cast_one] at hpos
    cases hsat : sat T with
    | true =>
      left
      rw [hsat] at hLT
      have hT : T < TL := hLT.mp rfl
      rcases m with _ | m'
      · exfalso
        have h1 := hpos.2
        simp only [Nat.cast_zero] at h1
        linarith
      · have hcall : call false sat u =
            (false, ⟨.checkCondition, true, some true, d, T + d, st⟩) := by
          simp only [u, call, hsat, if_true]
          simp [abs_of_pos hd0]
          rw [← one_div]; exact hd
        rw [hcall]
        refine ⟨m', rfl, rfl, rfl, true, rfl, by simp, ?_⟩
        simp only [if_true]
        constructor
        · simpa using hT
        · have := hpos.2
          push_cast at this ⊢
          linarith
    | false =>
      right
      rw [hsat] at hLT
      have hT : TL ≤ T := by
        by_contra hc
        exact absurd (hLT.mpr (not_le.mp hc)) (by simp)
      have habs : |d * (-(1 / 2))| = d / 2 := by
        rw [abs_mul, abs_neg, abs_of_pos hd0, abs_of_pos (by norm_num : (0 : K) < 1 / 2)]; ring
      by_cases hsm : 1 / 10 < d / 2
      · left
        have hcall : call false sat u =
            (false, ⟨.checkCondition, false, some false, d * (-(1 / 2)), T + d * (-(1 / 2)), st⟩) := by
          simp only [u, call, hsat]
          simp only [ne_eq, reduceCtorEq, not_false_eq_true, if_true, habs, hsm, Bool.true_eq_false]
        rw [hcall]
        refine ⟨hsm, rfl, rfl, false, rfl, by simp; ring, ?_⟩
        simp only [Bool.false_eq_true, if_false, Nat.cast_ofNat]
        constructor
        · linarith
        · have := hpos.1
          linarith
      · right
        have hcall : call false sat u =
            (true, ⟨.checkCondition, false, none, d * (-(1 / 2)), T, .success⟩) := by
          simp only [u, call, hsat]
          simp only [ne_eq, reduceCtorEq, not_false_eq_true, if_true, habs, hsm, Bool.true_eq_false,
            if_false]
        rw [hcall]
        refine ⟨not_lt.mp hsm, rfl, rfl, ⟨rfl, rfl⟩, Or.inr ⟨hT, ?_⟩⟩
        have := hpos.1
        simp only
        linarith
  | false =>
    simp only [Bool.false_eq_true, if_false, Nat.cast_add, Nat.cast_one] at hpos
    cases hsat : sat T with
    | false =>
      left
      rw [hsat] at hLT
      have hT : TL ≤ T := by
        by_contra hc
        exact absurd (hLT.mpr (not_le.mp hc)) (by simp)
      rcases m with _ | m'
      · exfalso
        have h1 := hpos.2
        simp only [Nat.cast_zero] at h1
        linarith
      · have hcall : call false sat u =
            (false, ⟨.checkCondition, false, some false, -d, T + -d, st⟩) := by
          simp only [u, call, hsat]
          simp [abs_of_pos hd0]
          rw [← one_div]; exact hd
        rw [hcall]
        refine ⟨m', rfl, rfl, rfl, false, rfl, by simp, ?_⟩
        simp only [Bool.false_eq_true, if_false]
        constructor
        · simpa using hT
        · have := hpos.2
          push_cast at this ⊢
          linarith
    | true =>
      right
      rw [hsat] at hLT
      have hT : T < TL := hLT.mp rfl
      have habs : |-d * (-(1 / 2))| = d / 2 := by
        rw [neg_mul_neg, abs_of_pos (by positivity)]; ring
      by_cases hsm : 1 / 10 < d / 2
      · left
        have hcall : call false sat u =
            (false, ⟨.checkCondition, true, some true, -d * (-(1 / 2)), T + -d * (-(1 / 2)), st⟩) := by
          simp only [u, call, hsat]
          simp only [Bool.false_eq_true, if_false, ne_eq, reduceCtorEq, not_false_eq_true, if_true,
            habs, hsm]
        rw [hcall]
        refine ⟨hsm, rfl, rfl, true, rfl, by simp; ring, ?_⟩
        simp only [if_true, Nat.cast_ofNat]
        constructor
        · linarith
        · have := hpos.1
          linarith
      · right
        have hcall : call false sat u =
            (true, ⟨.checkCondition, true, none, -d * (-(1 / 2)), T, .success⟩) := by
          simp only [u, call, hsat]
          simp only [Bool.false_eq_true, if_false, ne_eq, reduceCtorEq, not_false_eq_true, if_true,
            habs, hsm]
        rw [hcall]
        refine ⟨not_lt.mp hsm, rfl, rfl, ⟨rfl, rfl⟩, Or.inl ⟨hT, ?_⟩⟩
        have := hpos.1
        simp only
        linarith

/-- The width of the interval after the last but `r` halvings. -/
def width (r : ℕ) : K := 25 / 128 * 2 ^ r

theorem search_finishes (sat : K → Bool) (TL : K) (hL : IsLiquidus sat TL) (r : ℕ) :
    ∀ (m : ℕ) (s : St K), Search TL (width r) (m + 1) s →
      ∃ k f, k ≤ 4 * (m + 1 + 2 * r) ∧ run false sat k s = some (k, f) ∧ f.status = .success ∧ Fresh f ∧
        ((f.T < TL ∧ TL ≤ f.T + width 0) ∨ (TL ≤ f.T ∧ f.T < TL + width 0)) := by
  induction r with
  | zero =>
    intro m
    induction m with
    | zero =>
      intro s h
      rcases search_step sat TL hL (width 0) (by norm_num [width]) 0 s h with ⟨m', hm', -⟩ | ⟨hw, -⟩ | h3
      · omega
      · norm_num [width] at hw
      · obtain ⟨-, h1, h2, h4, h5⟩ := h3
        refine ⟨4, _, le_refl _, ?_, h2, h4, h5⟩
        rw [run_round sat 0 s h.step]
        simp [h1]
    | succ m ihm =>
      intro s h
      rcases search_step sat TL hL (width 0) (by norm_num [width]) (m + 1) s h with
        ⟨m', hm', h1, h2⟩ | ⟨hw, -⟩ | h3
      · obtain ⟨k, f, hk, hr, hf⟩ := ihm _ h2
        refine ⟨k + 4, f, by omega, ?_, hf⟩
        rw [run_round sat k s h.step]
        simp [h1, hr]
      · norm_num [width] at hw
      · obtain ⟨-, h1, h2, h4, h5⟩ := h3
        refine ⟨4, _, by omega, ?_, h2, h4, h5⟩
        rw [run_round sat 0 s h.step]
        simp [h1]
  | succ r ihr =>
    have hwr : (1 : K) / 10 < width (r + 1) ∧ ¬ (width (r + 1) / 2 ≤ (1 : K) / 10) := by
      have h2 : (1 : K) ≤ 2 ^ r := one_le_pow₀ (by norm_num)
      constructor
      · simp only [width, pow_succ]; linarith
      · simp only [width, pow_succ]; rw [not_le]; linarith
    have hhalf : (width (r + 1) : K) / 2 = width r := by simp only [width, pow_succ]; ring
    intro m
    induction m with
    | zero =>
      intro s h
      rcases search_step sat TL hL (width (r + 1)) hwr.1 0 s h with ⟨m', hm', -⟩ | ⟨-, h1, h2⟩ | h3
      · omega
      · rw [hhalf] at h2
        obtain ⟨k, f, hk, hr, hf⟩ := ihr 1 _ h2
        refine ⟨k + 4, f, by omega, ?_, hf⟩
        rw [run_round sat k s h.step]
        simp [h1, hr]
      · exact absurd h3.1 hwr.2
    | succ m ihm =>
      intro s h
      rcases search_step sat TL hL (width (r + 1)) hwr.1 (m + 1) s h with
        ⟨m', hm', h1, h2⟩ | ⟨-, h1, h2⟩ | h3
      · obtain ⟨k, f, hk, hr, hf⟩ := ihm _ h2
        refine ⟨k + 4, f, by omega, ?_, hf⟩
        rw [run_round sat k s h.step]
        simp [h1, hr]
      · rw [hhalf] at h2
        obtain ⟨k, f, hk, hr, hf⟩ := ihr 1 _ h2
        refine ⟨k + 4, f, by omega, ?_, hf⟩
        rw [run_round sat k s h.step]
        simp [h1, hr]
      · exact absurd h3.1 hwr.2

/-- If the melt has a liquidus `TL` (supersaturated exactly below it), the starting temperature is
between 550 and 2450 and `TL` is at most `m` intervals of 50 degrees away, Find Liquidus returns,
reports success, and stops less than 0.2 degrees from `TL`, after at most `4 (m + 18)` calls; the
statics are ready for another search. -/
theorem C17_finds_liquidus (sat : K → Bool) (TL : K) (hL : IsLiquidus sat TL) (s : St K)
    (hs : Fresh s) (h1 : 550 ≤ s.T) (h2 : s.T ≤ 2450) (m : ℕ) (hm : |TL - s.T| ≤ 50 * m) :
    ∃ k f, k ≤ 4 * (m + 18) ∧ run false sat k s = some (k, f) ∧ f.status = .success ∧ Fresh f ∧
      |f.T - TL| < 1 / 5 := by
  obtain ⟨hc, ht⟩ := hs
  obtain ⟨c, hsup, t, ti, T, st⟩ := s
  simp only at hc ht h1 h2 hm
  subst hc
  subst ht
  have hw8 : (50 : K) = width 8 := by norm_num [width]
  have hw0 : (width 0 : K) < 1 / 5 := by norm_num [width]
  obtain ⟨hm1, hm2⟩ := abs_le.mp hm
  have hLT := hL T
  have fin : ∀ s' : St K, Search TL (width 8) (m + 1) s' →
      call false sat ⟨.updateSystem, sat T, none, ti, T, st⟩ = (false, s') →
      ∃ k f, k ≤ 4 * (m + 18) ∧ run false sat k ⟨.checkCondition, hsup, none, ti, T, st⟩ = some (k, f) ∧
        f.status = .success ∧ Fresh f ∧ |f.T - TL| < 1 / 5 := by
    intro s' hs' hcall
    obtain ⟨k, f, hk, hr, hf1, hf2, hf3⟩ := search_finishes sat TL hL 8 m s' hs'
    refine ⟨k + 4, f, by omega, ?_, hf1, hf2, ?_⟩
    · rw [run_round sat k _ rfl]
      simp only [hcall, Bool.false_eq_true, if_false, hr, Option.map_some]
    · rw [abs_lt]
      rcases hf3 with ⟨a, b⟩ | ⟨a, b⟩ <;> constructor <;> linarith
  cases hsat : sat T with
  | true =>
    rw [hsat] at hLT
    have hT : T < TL := hLT.mp rfl
    refine fin ⟨.checkCondition, true, some true, 50, T + 50, st⟩ ?_ ?_
    · refine ⟨rfl, true, rfl, by simp [← hw8], ?_⟩
      simp only [if_true, ← hw8, Nat.cast_add, Nat.cast_one]
      constructor
      · linarith
      · linarith
    · rw [hsat]
      simp only [call, if_true]
      rw [if_neg (by linarith), if_neg (by linarith)]
  | false =>
    rw [hsat] at hLT
    have hT : TL ≤ T := by
      by_contra hc
      exact absurd (hLT.mpr (not_le.mp hc)) (by simp)
    refine fin ⟨.checkCondition, false, some false, -50, T + -50, st⟩ ?_ ?_
    · refine ⟨rfl, false, rfl, by simp [← hw8], ?_⟩
      simp only [Bool.false_eq_true, if_false, ← hw8, Nat.cast_add, Nat.cast_one]
      constructor
      · linarith
      · linarith
    · rw [hsat]
      simp only [call, Bool.false_eq_true, if_false]
      rw [if_neg (by linarith), if_neg (by linarith)]

omit [IsStrictOrderedRing K] in
/-- With solids or several liquids present the search is refused at once and changes nothing but the
status. -/
theorem C17_refuses (sat : K → Bool) (s : St K) (hs : Fresh s) (n : ℕ) :
    run true sat (n + 1) s = some (1, { s with status := .multiple }) := by
  obtain ⟨c, hsup, t, ti, T, st⟩ := s
  obtain ⟨h1, h2⟩ := hs
  simp only at h1 h2
  subst h1 h2
  simp [run, call]

/-! ### C18 -/

/-- A melt that is supersaturated at every temperature (or none at any): the search never returns, and
after `k` rounds the temperature has moved `50 k` degrees, past every limit; the bounds 500 and 2500 are
only tested on the first move. -/
theorem C18_unbounded (b : Bool) (s : St K) (hs : Fresh s)
    (h1 : 550 ≤ s.T) (h2 : s.T ≤ 2450) :
    (∀ n, run false (fun _ => b) n s = none) ∧
    ∀ k, (calls false (fun _ => b) (4 * (k + 1)) s).T = s.T + (k + 1) * (if b then 50 else -50) := by
  obtain ⟨hc, ht⟩ := hs
  obtain ⟨c, hsup, t, ti, T, st⟩ := s
  simp only at hc ht h1 h2
  subst hc
  subst ht
  set d : K := if b then 50 else -50 with hd
  have hdabs : (1 : K) / 10 < |d| := by
    cases b <;> simp [hd] <;> norm_num
  -- one round after the first
  have round : ∀ (n : ℕ) (T : K), run false (fun _ => b) (n + 4)
      ⟨.checkCondition, b, some b, d, T, st⟩ =
      (run false (fun _ => b) n ⟨.checkCondition, b, some b, d, T + d, st⟩).map
        fun q => (q.1 + 4, q.2) := by
    intro n T
    rw [run_round _ _ _ rfl]
    simp [call, -one_div, hdabs]
  have first : ∀ (n : ℕ), run false (fun _ => b) (n + 4)
      ⟨.checkCondition, hsup, none, ti, T, st⟩ =
      (run false (fun _ => b) n ⟨.checkCondition, b, some b, d, T + d, st⟩).map
        fun q => (q.1 + 4, q.2) := by
    intro n
    rw [run_round _ _ _ rfl]
    have e1 : ¬ (2500 < T + d) := by cases b <;> simp [hd] <;> linarith
    have e2 : ¬ (T + d < 500) := by cases b <;> simp [hd] <;> linarith
    simp only [call]
    rw [← hd, if_neg e1, if_neg e2]
    simp
  have none4 : ∀ (n : ℕ) (T : K),
      run false (fun _ => b) (4 * n) ⟨.checkCondition, b, some b, d, T, st⟩ = none := by
    intro n
    induction n with
    | zero => intro T; simp [run]
    | succ n ih => intro T; rw [show 4 * (n + 1) = 4 * n + 4 by ring, round, ih]; rfl
  constructor
  · intro n
    by_contra hne
    obtain ⟨r, hr⟩ := Option.ne_none_iff_exists'.mp hne
    have := run_mono false (fun _ => b) n (3 * n + 4) _ r hr
    rw [show n + (3 * n + 4) = 4 * n + 4 by ring, first, none4] at this
    simp at this
  · have c4 : ∀ (n : ℕ) (T : K), calls false (fun _ => b) (n + 4)
        ⟨.checkCondition, b, some b, d, T, st⟩ =
        calls false (fun _ => b) n ⟨.checkCondition, b, some b, d, T + d, st⟩ := by
      intro n T
      rw [show n + 4 = n + 1 + 1 + 1 + 1 from rfl]
      simp only [calls, call, Bool.false_eq_true, if_false]
      simp [-one_div, hdabs]
    have cT : ∀ (n : ℕ) (T : K), (calls false (fun _ => b) (4 * n)
        ⟨.checkCondition, b, some b, d, T, st⟩).T = T + n * d := by
      intro n
      induction n with
      | zero => intro T; simp [calls]
      | succ n ih =>
        intro T
        rw [show 4 * (n + 1) = 4 * n + 4 by ring, c4, ih]
        push_cast
        ring
    intro k
    have e1 : ¬ (2500 < T + d) := by cases b <;> simp [hd] <;> linarith
    have e2 : ¬ (T + d < 500) := by cases b <;> simp [hd] <;> linarith
    have : calls false (fun _ => b) (4 * (k + 1)) ⟨.checkCondition, hsup, none, ti, T, st⟩ =
        calls false (fun _ => b) (4 * k) ⟨.checkCondition, b, some b, d, T + d, st⟩ := by
      rw [show 4 * (k + 1) = 4 * k + 1 + 1 + 1 + 1 by ring]
      simp only [calls, call, Bool.false_eq_true, if_false]
      rw [← hd, if_neg e1, if_neg e2]
    rw [this, cT]
    ring

/-- A search that starts too close to a limit stops with a range error but stays in the middle: the
next Find Liquidus does not start again. Its first call, whatever temperature and melt the user has
set in between, moves the temperature by the old interval without evaluating anything, does not test
the limits and goes on with the old search state. -/
theorem C18_range_error_leaks (sat sat' : K → Bool) (s : St K) (hs : Fresh s)
    (hsat : sat s.T = true) (hT : 2450 < s.T) (T' : K) :
    ∃ f, run false sat 4 s = some (4, f) ∧ f.status = .maxT ∧ f.T = s.T + 50 ∧ ¬ Fresh f ∧
      call false sat' { f with T := T' } =
        (false, { f with T := T' + 50, curStep := .checkCondition }) := by
  obtain ⟨hc, ht⟩ := hs
  obtain ⟨c, hsup, t, ti, T, st⟩ := s
  simp only at hc ht hsat hT
  subst hc
  subst ht
  refine ⟨⟨.updateSystem, true, some true, 50, T + 50, .maxT⟩, ?_, rfl, rfl, by simp [Fresh], ?_⟩
  · rw [show (4 : ℕ) = 0 + 4 from rfl, run_round _ _ _ rfl]
    have hgt : 2500 < T + 50 := by linarith
    simp [call, hsat, hgt]
  · simp only [call]
    simp
    norm_num

/-- Same below the lower limit. -/
theorem C18_range_error_leaks_low (sat sat' : K → Bool) (s : St K) (hs : Fresh s)
    (hsat : sat s.T = false) (hT : s.T < 550) (T' : K) :
    ∃ f, run false sat 4 s = some (4, f) ∧ f.status = .minT ∧ f.T = s.T - 50 ∧ ¬ Fresh f ∧
      call false sat' { f with T := T' } =
        (false, { f with T := T' + -50, curStep := .checkCondition }) := by
  obtain ⟨hc, ht⟩ := hs
  obtain ⟨c, hsup, t, ti, T, st⟩ := s
  simp only at hc ht hsat hT
  subst hc
  subst ht
  refine ⟨⟨.updateSystem, false, some false, -50, T + -50, .minT⟩, ?_, rfl, by simp; ring,
    by simp [Fresh], ?_⟩
  · rw [show (4 : ℕ) = 0 + 4 from rfl, run_round _ _ _ rfl]
    have hgt : ¬ 2500 < T + -50 := by rw [not_lt]; linarith
    have hlt : T + -50 < 500 := by linarith
    simp [call, hsat, hgt, hlt]
  · simp only [call]
    simp
    norm_num

/-- A concrete search: liquidus at 1473 K, start at 1600 K. -/
example :
    ((run false (fun T : ℚ => decide (T < 1473)) 100
      ⟨.checkCondition, false, none, 0, 1600, .none⟩).map
        fun r => (decide (r.1 ≤ 84), r.2.status, decide (|r.2.T - 1473| < 1 / 5)))
      = some (true, .success, true) := by decide +kernel

example : IsLiquidus (fun T : ℚ => decide (T < 1473)) 1473 := fun T => by simp

end Magma.Engine.Liquidus
