import Verif.Engine.Path

/-!
Conditions of a library call: `meltsprocess_`, /repo/sources/library.c 724-778 (before the calculation) and 1136-1161 (after
it), around the path logic of the engine (`Engine/Path`). `temperature` and `pressure` are the arguments of the call, `value`
the argument that is an enthalpy (mode 2), an entropy (mode 3) or a volume (mode 4).

Simplification: `double` is an ordered field. The equilibrations themselves, the temperature or pressure the engine finds for
a new reference, and the enthalpy, entropy and volume of the final assemblage (`totH`, `totS`, `totV`) are arbitrary.
-/

namespace Magma.Lib.Modes

open Magma.Engine.Path

variable {K : Type} [Field K] [LinearOrder K] [IsStrictOrderedRing K]

/-- library.c 724-733. -/
def conditions (T P : K) (s : PState K) : PState K :=
  { s with isenthalpic := false, isentropic := false, isochoric := false, T := T, Tstart := T, Tstop := T, Tinc := 0,
           P := P, Pstart := P, Pstop := P }

/-- library.c 742-778. -/
def setup (mode : ℕ) (T P value : K) (s0 : PState K) : PState K :=
  let s := conditions T P s0
  match mode with
  | 2 =>
    if value ≠ 0 then
      { s with isenthalpic := true, Hstop := value, Hinc := value - s.refH, Tstart := 0, Tstop := 0 }
    else { s with refH := 0 }
  | 3 =>
    if value ≠ 0 then
      { s with isentropic := true, Sstop := value, Sinc := value - s.refS, Tstart := 0, Tstop := 0 }
    else { s with refS := 0 }
  | 4 =>
    if value ≠ 0 then
      { s with isochoric := true, Vstop := value / 10, Vinc := value / 10 - s.refV, Pstart := 0, Pstop := 0 }
    else { s with refV := 0 }
  | _ => { s with refS := 0, refH := 0, refV := 0 }

/-- library.c 1137-1158: the value handed back and the references kept for the next call. -/
def final (mode : ℕ) (totH totS totV value : K) (s : PState K) : PState K × K :=
  match mode with
  | 0 => (s, 0)
  | 1 => (s, totH)
  | 2 => ({ s with refH := totH }, totH)
  | 3 => ({ s with refS := totS }, totS)
  | 4 => ({ s with refV := totV }, 10 * totV)
  | _ => (s, value)

/-- The engine's run in the state set up ends after its `n`-th equilibration (`while(!silmin());` with the path logic). -/
def EndsAt (cT cP : PState K → K) (s : PState K) (n : ℕ) : Prop :=
  (∀ k < n, continues cT cP s k = true) ∧ continues cT cP s n = false

theorem far_same (a i : K) (hi : 0 ≤ i) : far a a i (1 / 1000) = false := by
  unfold far gate
  rw [sub_self, abs_zero]
  by_cases h : i ≠ 0
  · rw [if_pos h]; exact decide_eq_false (not_le.mpr (lt_of_le_of_ne hi (Ne.symm h)))
  · rw [if_neg h]; exact decide_eq_false (by norm_num)

/-- No volume constraint, no pressure interval: nothing more to do for the pressure. -/
theorem updP_idle (cP : PState K → K) (s : PState K) (hv : s.isochoric = false) (hp : s.Pstart = s.Pstop) (hi : 0 ≤ s.Pinc) :
    updP cP s = (s, false) := by
  unfold updP
  have : vOn s = false := by unfold vOn; rw [hv]; rfl
  rw [hp, far_same _ _ hi]
  simp [this]

/-- No energy constraint, no temperature interval: nothing to do for the temperature. -/
theorem updT_idle (cT : PState K → K) (s : PState K) (hh : hOn s = false) (hs : sOn s = false) (ht : s.Tstart = s.Tstop)
    (hi : 0 ≤ s.Tinc) : updT cT s = (s, false) := by
  unfold updT
  rw [ht, far_same _ _ hi]
  simp [hh, hs]

/-! ### C56 -/

/-- A call in mode 2 whose predecessor left an enthalpy (`refH ≠ 0`): the run first restores equilibrium at the old enthalpy,
then goes to the requested one in a single step, and ends there. -/
theorem C56_isenthalpic (cT cP : PState K → K) (T P h : K) (s : PState K) (hh : h ≠ 0) (hr : s.refH ≠ 0) (hp : 0 ≤ s.Pinc) :
    EndsAt cT cP (setup 2 T P h s) (if h = s.refH then 0 else 1) ∧
    (after cT cP (setup 2 T P h s) (if h = s.refH then 0 else 1)).refH = h := by
  have e : setup 2 T P h s =
      { conditions T P s with isenthalpic := true, Hstop := h, Hinc := h - s.refH, Tstart := 0, Tstop := 0 } := by
    simp only [setup]; rw [if_pos hh]; rfl
  generalize hs0 : setup 2 T P h s = s0 at e
  have f1 : s0.isenthalpic = true := by rw [e]
  have f2 : s0.isentropic = false := by rw [e]; rfl
  have f3 : s0.isochoric = false := by rw [e]; rfl
  have f4 : s0.Hstop = h := by rw [e]
  have f5 : s0.Hinc = h - s.refH := by rw [e]
  have f6 : s0.refH = s.refH := by rw [e]; rfl
  have f7 : s0.Pstart = s0.Pstop := by rw [e]; rfl
  have f8 : s0.Pinc = s.Pinc := by rw [e]; rfl
  have stay : ∀ t : PState K, t.isenthalpic = true → t.isentropic = false → t.isochoric = false → t.Hstop = h →
      t.refH = h → t.Pstart = t.Pstop → 0 ≤ t.Pinc → continues cT cP t 0 = false := by
    intro t a1 a2 a3 a4 a5 a6 a7
    have hOn' : hOn t = true := by unfold hOn; rw [a1, a5]; simp [hh]
    have sOn' : sOn t = false := by unfold sOn; rw [a2]; rfl
    have : updT cT t = (t, false) := by
      unfold updT
      have g : farRef t.Hstop t.refH t.Hinc (1 / 1000) = false := by
        unfold farRef gate
        rw [a4, a5, sub_self, abs_zero]
        by_cases hz : |t.Hinc| ≠ 0
        · rw [if_pos hz]; exact decide_eq_false (not_le.mpr (lt_of_le_of_ne (abs_nonneg _) (Ne.symm hz)))
        · rw [if_neg hz]; exact decide_eq_false (by norm_num)
      rw [g]
      simp [hOn', sOn', a4, hh]
    show (update cT cP t).2 = false
    unfold update
    rw [this]
    simp only [Bool.false_or]
    rw [updP_idle cP t a3 a6 a7]
  by_cases heq : h = s.refH
  · rw [if_pos heq]
    refine ⟨⟨fun k hk => absurd hk (Nat.not_lt_zero _), ?_⟩, ?_⟩
    · exact stay s0 f1 f2 f3 f4 (by rw [f6, heq]) f7 (by rw [f8]; exact hp)
    · show s0.refH = h; rw [f6, heq]
  · rw [if_neg heq]
    have hOn' : hOn s0 = true := by unfold hOn; rw [f1, f6]; simp [hr]
    have sOn' : sOn s0 = false := by unfold sOn; rw [f2]; rfl
    have hd : h - s.refH ≠ 0 := sub_ne_zero.mpr heq
    have g : farRef s0.Hstop s0.refH s0.Hinc (1 / 1000) = true := by
      unfold farRef gate
      rw [f4, f5, f6, if_pos (abs_ne_zero.mpr hd)]
      exact decide_eq_true (le_refl _)
    obtain ⟨s1, hs1⟩ : ∃ s1, s1 = { s0 with refH := s0.refH + s0.Hinc, T := cT { s0 with refH := s0.refH + s0.Hinc } } :=
      ⟨_, rfl⟩
    have hu : updT cT s0 = (s1, true) := by
      rw [hs1]
      unfold updT
      rw [g]
      simp [hOn', f4, hh]
    have hup : update cT cP s0 = (s1, true) := by
      unfold update
      rw [hu]
      simp only [Bool.true_or]
      rw [updP_idle cP s1 (by rw [hs1]; exact f3) (by rw [hs1]; exact f7) (by rw [hs1]; show 0 ≤ s0.Pinc; rw [f8]; exact hp)]
    have ha : after cT cP s0 1 = (update cT cP s0).1 := rfl
    refine ⟨⟨fun k hk => ?_, ?_⟩, ?_⟩
    · have : k = 0 := by omega
      subst this
      show (update cT cP s0).2 = true
      rw [hup]
    · show (update cT cP (after cT cP s0 1)).2 = false
      have := stay (after cT cP s0 1) (by rw [ha, hup, hs1]; exact f1) (by rw [ha, hup, hs1]; exact f2) (by rw [ha, hup, hs1]; exact f3)
        (by rw [ha, hup, hs1]; exact f4) (by rw [ha, hup, hs1]; show s0.refH + s0.Hinc = h; rw [f5, f6]; ring)
        (by rw [ha, hup, hs1]; exact f7) (by rw [ha, hup, hs1]; show 0 ≤ s0.Pinc; rw [f8]; exact hp)
      exact this
    · rw [ha, hup, hs1]; show s0.refH + s0.Hinc = h; rw [f5, f6]; ring

/-- A call in mode 2 without an enthalpy left by its predecessor (the first call of a node, or after a call in mode 1): no
enthalpy is imposed at all. The run is one equilibration at the temperature given, whatever enthalpy was asked for, and the
call reports no problem. -/
theorem C56_not_imposed (cT cP : PState K → K) (T P h : K) (s : PState K) (hr : s.refH = 0) (hp : 0 ≤ s.Pinc) :
    EndsAt cT cP (setup 2 T P h s) 0 ∧ hOn (setup 2 T P h s) = false ∧ (setup 2 T P h s).T = T := by
  have hOff : hOn (setup 2 T P h s) = false := by
    unfold hOn setup conditions
    simp only
    split_ifs <;> simp [hr]
  refine ⟨⟨fun k hk => absurd hk (Nat.not_lt_zero _), ?_⟩, hOff, ?_⟩
  · show (update cT cP (setup 2 T P h s)).2 = false
    unfold update
    have e : updT cT (setup 2 T P h s) = (setup 2 T P h s, false) := by
      apply updT_idle _ _ hOff
      · unfold sOn setup conditions; simp only; split_ifs <;> rfl
      · unfold setup conditions; simp only; split_ifs <;> rfl
      · unfold setup conditions; simp only; split_ifs <;> exact le_refl _
    rw [e]
    simp only [Bool.false_or]
    rw [updP_idle]
    · unfold setup conditions; simp only; split_ifs <;> rfl
    · unfold setup conditions; simp only; split_ifs <;> rfl
    · unfold setup conditions; simp only; split_ifs <;> exact hp
  · unfold setup conditions; simp only; split_ifs <;> rfl

/-- Every call in mode 1 forgets the references: a following call in mode 2, 3 or 4 imposes nothing. -/
theorem C56_mode1_forgets (T P v totH totS totV : K) (s : PState K) :
    (final 1 totH totS totV v (setup 1 T P v s)).1.refH = 0 ∧ (final 1 totH totS totV v (setup 1 T P v s)).1.refS = 0 ∧
    (final 1 totH totS totV v (setup 1 T P v s)).1.refV = 0 := ⟨rfl, rfl, rfl⟩

/-- Two calls in mode 2 in a row: the second starts from the enthalpy the first handed back. Asking for that very value again
moves nothing. -/
theorem C56_chain (cT cP : PState K → K) (T P T' P' h totH totS totV : K) (s : PState K) (hp : 0 ≤ s.Pinc) (ht : totH ≠ 0) :
    let r := final 2 totH totS totV h s
    r.2 = totH ∧ EndsAt cT cP (setup 2 T' P' r.2 r.1) 0 ∧ (setup 2 T' P' r.2 r.1).refH = totH := by
  intro r
  have h1 : r.1.refH = totH := rfl
  have h2 : r.2 = totH := rfl
  have key := C56_isenthalpic cT cP T' P' r.2 r.1 (by rw [h2]; exact ht) (by rw [h1]; exact ht) hp
  rw [if_pos (by rw [h1, h2])] at key
  exact ⟨h2, key.1, key.2.trans h2⟩

/-- Isochoric calls in a row likewise, in the units handed out (cubic centimetres; J/bar inside). -/
theorem C56_volume_units (totH totS totV v T P : K) (s : PState K) (hv : totV ≠ 0) :
    let r := final 4 totH totS totV v s
    (setup 4 T P r.2 r.1).Vstop = totV ∧ (setup 4 T P r.2 r.1).Vinc = 0 := by
  intro r
  have h2 : r.2 = 10 * totV := rfl
  have h1 : r.1.refV = totV := rfl
  have hne : r.2 ≠ 0 := by rw [h2]; exact mul_ne_zero (by norm_num) hv
  have e : r.2 / 10 = totV := by rw [h2]; field_simp
  have : setup 4 T P r.2 r.1 =
      { conditions T P r.1 with isochoric := true, Vstop := r.2 / 10, Vinc := r.2 / 10 - r.1.refV, Pstart := 0, Pstop := 0 } := by
    simp only [setup]; rw [if_pos hne]; rfl
  rw [this]
  exact ⟨e, by show r.2 / 10 - r.1.refV = 0; rw [e, h1, sub_self]⟩

/-- A call in mode 2, 3 or 4 with value zero drops the reference of that mode and imposes nothing: no constraint is switched on,
and the value handed back becomes the reference of the next call. -/
theorem C56_zero_restarts (T P totH totS totV : K) (s : PState K) (m : ℕ) (hm : m = 2 ∨ m = 3 ∨ m = 4) :
    let s0 := setup m T P 0 s
    s0.isenthalpic = false ∧ s0.isentropic = false ∧ s0.isochoric = false ∧ s0.T = T ∧ s0.P = P ∧ s0.Tstart = T ∧ s0.Pstart = P ∧
    (m = 2 → s0.refH = 0 ∧ s0.refS = s.refS ∧ s0.refV = s.refV ∧ (final m totH totS totV 0 s0).1.refH = (final m totH totS totV 0 s0).2) ∧
    (m = 3 → s0.refS = 0 ∧ s0.refH = s.refH ∧ s0.refV = s.refV ∧ (final m totH totS totV 0 s0).1.refS = (final m totH totS totV 0 s0).2) ∧
    (m = 4 → s0.refV = 0 ∧ s0.refH = s.refH ∧ s0.refS = s.refS ∧ 10 * (final m totH totS totV 0 s0).1.refV = (final m totH totS totV 0 s0).2) := by
  rcases hm with rfl | rfl | rfl <;> simp [setup, conditions, final]

/-! ### A concrete case -/

def exS : PState ℚ :=
  { T := 1473, Tstart := 1473, Tstop := 1473, Tinc := 0, P := 1000, Pstart := 1000, Pstop := 1000, Pinc := 0,
    isenthalpic := false, refH := -1100, Hstop := 0, Hinc := 0, isentropic := false, refS := 0, Sstop := 0, Sinc := 0,
    isochoric := false, refV := 0, Vstop := 0, Vinc := 0 }

example : (setup 2 1473 1000 0 exS).refH = 0 ∧ (final 2 (-1200) 0 0 0 (setup 2 1473 1000 0 exS)).1.refH = -1200 := by constructor <;> decide +kernel
example : exS.refH ≠ 0 ∧ (0 : ℚ) ≤ exS.Pinc := by constructor <;> decide +kernel
example : (after (fun _ => 1450) (fun _ => 1000) (setup 2 1473 1000 (-1150) exS) 1).T = 1450 := by decide +kernel

end Magma.Lib.Modes
