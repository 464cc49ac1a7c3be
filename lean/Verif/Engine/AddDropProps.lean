import Verif.Engine.AddDrop

/-! Properties C04, C05, C06, C15. -/

namespace Magma.Engine

variable {nc nlc : ℕ} {K : Type} [Field K] [LinearOrder K]

theorem zipLiq_oxide (tb : Tables nc nlc K) (o : Fin nc) :
    ∀ (rs : List (SRow nc nlc K)) (cs : List K), (∀ r ∈ rs, RowOk tb r) →
      ∑ j, (List.zipWith (fun r c => r.solToLiq j * c) rs cs).sum * tb.liqToOx j o =
        (List.zipWith (fun r c => c * r.solToOx o) rs cs).sum
  | [], _, _ => by simp
  | _ :: _, [], _ => by simp
  | r :: rs, c :: cs, h => by
    have ih := zipLiq_oxide tb o rs cs (fun x hx => h x (by simp [hx]))
    simp only [List.zipWith_cons_cons, List.sum_cons, add_mul, Finset.sum_add_distrib, ih]
    congr 1
    rw [h r (by simp) o, Finset.mul_sum]
    exact Finset.sum_congr rfl fun _ _ => by ring

/-- Converting a copy to liquid components keeps its oxides. -/
theorem liqOf_oxide (tb : Tables nc nlc K) (p : SPhase nc nlc K) (hp : PhaseOk tb p) (x : Inst K)
    (o : Fin nc) : ∑ j, liqOf p x j * tb.liqToOx j o = soxide p o x := by
  unfold liqOf soxide
  split
  · rename_i he
    rw [hp.1 he o, Finset.mul_sum]
    exact Finset.sum_congr rfl fun _ _ => by ring
  · exact zipLiq_oxide tb o p.ems x.comps hp.2

theorem liquidsOxide_cons (tb : Tables nc nlc K) (l : Fin nlc → K) (ls : List (Fin nlc → K))
    (o : Fin nc) :
    liquidsOxide tb (l :: ls) o = ∑ j, l j * tb.liqToOx j o + liquidsOxide tb ls o := by
  simp [liquidsOxide]

theorem solidsOxide_set (ss : List (SState nc nlc K)) (k : ℕ) (q q' : SState nc nlc K)
    (hk : ss[k]? = some q) (o : Fin nc) :
    solidsOxide (ss.set k q') o = solidsOxide ss o - (q.insts.map (soxide q.ph o)).sum +
      (q'.insts.map (soxide q'.ph o)).sum := by
  induction ss generalizing k with
  | nil => simp at hk
  | cons s ss ih =>
    cases k with
    | zero =>
      simp only [List.getElem?_cons_zero, Option.some.injEq] at hk
      subst hk
      simp only [solidsOxide, List.set_cons_zero, List.map_cons, List.sum_cons]; ring
    | succ k =>
      have := ih k (by simpa using hk)
      simp only [solidsOxide, List.set_cons_succ, List.map_cons, List.sum_cons] at this ⊢
      rw [this]; ring

theorem seedLoop_pow (test : (Fin nlc → K) → Bool) (lim : K) (l0 : Fin nlc → K) (p : SPhase nc nlc K) (mSol : List K)
    (fuel : ℕ) (massin x : K) (h : seedLoop test lim l0 p mSol fuel massin = some (some x)) :
    ∃ n : ℕ, x = massin * (1 / 2) ^ n := by
  induction fuel generalizing massin with
  | zero => simp [seedLoop] at h
  | succ fuel ih =>
    unfold seedLoop at h
    split at h
    · simp only [Option.some.injEq] at h
      exact ⟨0, by rw [← h]; simp⟩
    · split at h
      · simp at h
      · obtain ⟨n, hn⟩ := ih _ h
        exact ⟨n + 1, by rw [hn, pow_succ]; ring⟩

/-- **C04.** Adding a solid to an assemblage with liquid keeps every oxide total and the bulk, and
creates exactly one copy of that phase, of `massin / 2^n` moles and the composition found by the saturation
evaluation, taken from the first liquid, which passes the feasibility test afterwards (`C04_seed_size` says which `n`). If the step gives up, nothing has changed. -/
theorem C04_nucleation_conserves (tb : Tables nc nlc K) (test : (Fin nlc → K) → Bool)
    (massin lim : K) (fuel k : ℕ) (mSol : List K) (s : Sys nc nlc K)
    (hk : ∀ q, s.solids[k]? = some q → PhaseOk tb q.ph ∧ q.insts = []) :
    (∀ s', addSolidLiq test massin lim fuel k mSol s = .added s' →
      (∀ o, total tb s' o = total tb s o) ∧ s'.bulk = s.bulk ∧
      (∃ q x l0 ls, s.solids[k]? = some q ∧ s.liquids = l0 :: ls ∧
        s'.solids[k]? = some { q with insts := [x] } ∧
        (∃ n : ℕ, x.tot = massin * (1 / 2) ^ n) ∧ (q.ph.ems ≠ [] → x.comps = mSol.map fun m => m * x.tot) ∧
        test (fun j => l0 j - liqOf q.ph x j) = true ∧
        s'.liquids = (fun j => l0 j - liqOf q.ph x j) :: ls) ∧
      ∀ k', k' ≠ k → s'.solids[k']? = s.solids[k']?) ∧
    (∀ s', addSolidLiq test massin lim fuel k mSol s = .aborted s' → s' = s) := by
  unfold addSolidLiq
  constructor
  · intro s' h
    split at h
    · rename_i q l0 ls hq hl
      obtain ⟨hok, hempty⟩ := hk q hq
      split at h
      · cases h
      · cases h
      · rename_i inmass hseed
        injection h with h
        subst h
        refine ⟨fun o => ?_, rfl, ⟨q, _, l0, ls, hq, hl, ?_, ?_, ?_, ?_, rfl⟩, ?_⟩
        · simp only [total, setSolid]
          rw [solidsOxide_set _ k q _ hq o, hl, liquidsOxide_cons, liquidsOxide_cons, hempty]
          simp only [sub_mul, Finset.sum_sub_distrib, liqOf_oxide tb q.ph hok, List.map_nil,
            List.sum_nil, List.map_cons, List.sum_cons]
          ring
        · simp only [setSolid]
          rw [List.getElem?_set_self]
          by_contra hh
          rw [List.getElem?_eq_none (not_lt.1 hh)] at hq
          cases hq
        · obtain ⟨n, hn⟩ := seedLoop_pow test lim l0 q.ph mSol fuel massin inmass hseed
          exact ⟨n, by rw [← hn]; unfold seed; split <;> rfl⟩
        · intro he
          unfold seed
          rw [if_neg he]
        · clear hk hempty hok hq hl
          generalize massin = m at hseed
          induction fuel generalizing m with
          | zero => simp [seedLoop] at hseed
          | succ n ih =>
            unfold seedLoop at hseed
            split at hseed
            · rename_i ht
              simp only [Option.some.injEq] at hseed
              subst hseed
              exact ht
            · split at hseed
              · simp at hseed
              · exact ih _ hseed
        · intro k' hk'
          simp only [setSolid]
          rw [List.getElem?_set_ne (Ne.symm hk')]
    · cases h
  · intro s' h
    split at h
    · split at h
      · cases h
      · injection h with h; exact h.symm
      · cases h
    · injection h with h; exact h.symm

/-- **C04 (seed size).** The seed is the first of `massin, massin/2, massin/4, ...` the liquid can
supply; the step gives up exactly when none of the candidates that are not below the limit can be
supplied; and it always comes to one of these ends within `n+1` trials if `massin/2^n < lim`. -/
theorem C04_seed_size [IsStrictOrderedRing K] (test : (Fin nlc → K) → Bool) (lim : K)
    (l0 : Fin nlc → K) (p : SPhase nc nlc K) (mSol : List K) (fuel : ℕ) (massin : K)
    (hm : 0 < massin) :
    let ok := fun n : ℕ =>
      test (fun j => l0 j - liqOf p (seed p mSol (massin / 2 ^ n)) j) = true
    (∀ x, seedLoop test lim l0 p mSol fuel massin = some (some x) →
      ∃ n, x = massin / 2 ^ n ∧ ok n ∧ (∀ m < n, ¬ ok m) ∧ (0 < n → lim ≤ massin / 2 ^ n)) ∧
    (seedLoop test lim l0 p mSol fuel massin = some none →
      ∀ n, n = 0 ∨ lim ≤ massin / 2 ^ n → ¬ ok n) ∧
    (∀ n < fuel, massin / 2 ^ n < lim →
      ∃ r, seedLoop test lim l0 p mSol fuel massin = some r) := by
  simp only
  have h2 : (2 : K) ≠ 0 := two_ne_zero
  have shift : ∀ (m : K) (n : ℕ), m * (1 / 2) / 2 ^ n = m / 2 ^ (n + 1) := by
    intro m n; rw [pow_succ]; field_simp
  induction fuel generalizing massin with
  | zero => simp [seedLoop]
  | succ fuel ih =>
    obtain ⟨i1, i2, i3⟩ := ih (massin * (1 / 2)) (by linarith)
    simp only [shift] at i1 i2 i3
    unfold seedLoop
    by_cases ht : test (fun j => l0 j - liqOf p (seed p mSol massin) j) = true
    · rw [if_pos ht]
      refine ⟨?_, by simp, fun _ _ _ => ⟨_, rfl⟩⟩
      intro x hx
      simp only [Option.some.injEq] at hx
      subst hx
      exact ⟨0, by simp, by simpa using ht, by simp, by simp⟩
    · rw [if_neg ht]
      by_cases hl : massin * (1 / 2) < lim
      · rw [if_pos hl]
        refine ⟨by simp, fun _ => ?_, fun _ _ _ => ⟨_, rfl⟩⟩
        intro n hn
        rcases Nat.eq_zero_or_pos n with h0 | hpos
        · subst h0; simpa using ht
        · exfalso
          rcases hn with hn | hn
          · omega
          · obtain ⟨n, rfl⟩ : ∃ k, n = k + 1 := ⟨n - 1, by omega⟩
            rw [← shift] at hn
            have : massin * (1 / 2) / 2 ^ n ≤ massin * (1 / 2) :=
              div_le_self (by linarith) (one_le_pow₀ (by norm_num))
            linarith
      · rw [if_neg hl]
        refine ⟨?_, ?_, ?_⟩
        · intro x hx
          obtain ⟨n, e1, e2, e3, e4⟩ := i1 x hx
          refine ⟨n + 1, e1, e2, ?_, ?_⟩
          · intro m hm
            cases m with
            | zero => simpa using ht
            | succ m => exact e3 m (by omega)
          · intro _
            rcases Nat.eq_zero_or_pos n with hn | hn
            · subst hn
              have := not_lt.1 hl
              simpa [div_eq_mul_inv] using this
            · exact e4 hn
        · intro hx n hn
          cases n with
          | zero => simpa using ht
          | succ n => exact i2 hx n (by simpa using Or.inr hn)
        · intro n hn hlt
          cases n with
          | zero =>
            exfalso
            have h0 : massin < lim := by simpa using hlt
            have h1 := not_lt.1 hl
            linarith
          | succ n => exact i3 n (by omega) hlt

/-- **C04 (termination).** With the constants of the program (MASSIN = 1e-5, limit ten machine
epsilons) at most 34 sizes are tried. -/
theorem C04_terminates [IsStrictOrderedRing K] (test : (Fin nlc → K) → Bool)
    (l0 : Fin nlc → K) (p : SPhase nc nlc K) (mSol : List K) :
    ∃ r, seedLoop test (10 / 2 ^ 52 : K) l0 p mSol 34 (1 / 100000) = some r :=
  (C04_seed_size test _ l0 p mSol 34 _ (by norm_num)).2.2 33 (by norm_num) (by norm_num)

end Magma.Engine
