import Verif.Engine.EvaluateSvd
import Mathlib.Data.List.GetD
import Mathlib.Data.List.Nodup
import Mathlib.Analysis.SpecialFunctions.Pow.Real

/-!
Property C73: the potentials against which absent phases are tested, and the affinities that result.
-/

namespace Magma.Engine.Evaluate

open Finset

variable (s : State) (d : Svd) (junk : ℕ → ℝ)

/-! ### Specification -/

/-- Every reaction among the end members of the solids present has zero Gibbs energy: coefficients `c` under which the
contents of all liquid components cancel leave no energy. -/
def Equilibrium : Prop :=
  ∀ c : ℕ → ℝ, (∀ k < s.nlc, ∑ j ∈ range (rows s).length, c j * ((rows s).getD j (0, 0)).2 k = 0) →
    ∑ j ∈ range (rows s).length, c j * ((rows s).getD j (0, 0)).1 = 0

/-- The solids present contain only liquid components whose oxides are in the bulk composition. -/
def Closed : Prop := ∀ r ∈ rows s, ∀ k < s.nlc, ¬ Avail s k → r.2 k = 0

/-- `c` is a way to make something of content `nu` from the end members of the solids present. -/
def Makes (c : ℕ → ℝ) (nu : ℕ → ℝ) : Prop :=
  ∀ k < s.nlc, nu k = ∑ j ∈ range (rows s).length, c j * ((rows s).getD j (0, 0)).2 k

/-- The Gibbs energy of the reaction that makes something of potential `g` from the solids present. -/
noncomputable def reactionEnergy (c : ℕ → ℝ) (g : ℝ) : ℝ :=
  g - ∑ j ∈ range (rows s).length, c j * ((rows s).getD j (0, 0)).1

/-- The decomposition is that of the matrix of the solids present, there are at least as many end members as
components, and no singular value is between zero and the threshold. -/
structure Solved : Prop where
  svd : IsSvd (rows s).length (cols s).length (mat s) d
  enough : (cols s).length ≤ (rows s).length
  gap : ∀ q < (cols s).length, d.S q = 0 ∨ 1 / 10 ^ 8 ≤ d.S q

/-- A phase needs a liquid component that is absent. -/
def Needs (s : State) (e : EndMember) : Prop := ∃ l < s.nlc, e.toLiq l ≠ 0 ∧ present s l = 0

/-! ### Columns -/

theorem cols_nodup : (cols s).Nodup := by
  classical
  unfold cols
  exact List.nodup_range.filter _

theorem mem_cols (k : ℕ) : k ∈ cols s ↔ k < s.nlc ∧ Avail s k := by
  classical
  unfold cols
  rw [List.mem_filter, List.mem_range]
  simp

theorem sum_cols (g : ℕ → ℕ → ℝ) : ∑ l ∈ range (cols s).length, g ((cols s).getD l 0) l =
    ∑ k ∈ range s.nlc, open Classical in if Avail s k then g k ((cols s).idxOf k) else 0 := by
  classical
  rw [← sum_filter]
  refine sum_nbij' (fun l => (cols s).getD l 0) (fun k => (cols s).idxOf k) ?_ ?_ ?_ ?_ ?_
  · intro l hl
    have hl := mem_range.1 hl
    rw [List.getD_eq_getElem _ _ hl, mem_filter, mem_range]
    exact (mem_cols s _).1 (List.getElem_mem hl)
  · intro k hk
    rw [mem_filter, mem_range] at hk
    exact mem_range.2 (List.idxOf_lt_length_of_mem ((mem_cols s k).2 hk))
  · intro l hl
    have hl := mem_range.1 hl
    rw [List.getD_eq_getElem _ _ hl]
    exact (cols_nodup s).idxOf_getElem l hl
  · intro k hk
    rw [mem_filter, mem_range] at hk
    have := List.idxOf_lt_length_of_mem ((mem_cols s k).2 hk)
    rw [List.getD_eq_getElem _ _ this]
    exact List.getElem_idxOf this
  · intro l hl
    have hl := mem_range.1 hl
    rw [List.getD_eq_getElem _ _ hl, (cols_nodup s).idxOf_getElem l hl]

/-- The sum over all components of a content and a potential is the sum over the columns of the system. -/
theorem dot_noLiquid (hl : s.liquidMass = 0) (hn : (cols s).length ≤ (rows s).length) (nu : ℕ → ℝ) :
    ∑ k ∈ range s.nlc, nu k * muLiq s d junk k = ∑ l ∈ range (cols s).length, nu ((cols s).getD l 0) *
      svSolve (rows s).length (cols s).length d (rhs s) l := by
  classical
  rw [sum_cols s fun k l => nu k * svSolve (rows s).length (cols s).length d (rhs s) l]
  refine sum_congr rfl fun k _ => ?_
  unfold muLiq noLiquid
  rw [if_neg (by simp [hl]), if_neg (not_lt.2 hn)]
  split <;> simp

/-- **C73** (equilibrium below the solidus): when there is no liquid and the solids are in equilibrium, the potentials
computed for the liquid components reproduce the potential of every end member of every solid present. -/
theorem C73_present (hl : s.liquidMass = 0) (hd : Solved s d) (he : Equilibrium s) (hc : Closed s) :
    ∀ r ∈ rows s, ∑ k ∈ range s.nlc, r.2 k * muLiq s d junk k = r.1 := by
  intro r hr
  obtain ⟨j, hj, rfl⟩ := List.mem_iff_getElem.1 hr
  rw [dot_noLiquid s d junk hl hd.enough]
  have hb : ∀ c : ℕ → ℝ, (∀ k < (cols s).length, ∑ j ∈ range (rows s).length, c j * mat s j k = 0) →
      ∑ j ∈ range (rows s).length, c j * rhs s j = 0 := by
    intro c h
    refine he c fun k hk => ?_
    by_cases ha : Avail s k
    · have hm := (mem_cols s k).2 ⟨hk, ha⟩
      have hlt := List.idxOf_lt_length_of_mem hm
      have := h _ hlt
      unfold mat at this
      rwa [List.getD_eq_getElem (cols s) _ hlt, List.getElem_idxOf hlt] at this
    · refine sum_eq_zero fun j hj => ?_
      rw [List.getD_eq_getElem _ _ (mem_range.1 hj), hc _ (List.getElem_mem _) k hk ha, mul_zero]
  have := solve_exact (b := rhs s) hd.svd hd.gap hb hj
  unfold mat rhs at this
  rw [List.getD_eq_getElem _ _ hj] at this
  exact this

/-- The chemical potential of end member `k` of a phase that is present: the standard state for a pure phase, with the
mixing part for a solution. -/
noncomputable def potential (ph : Phase) (k : ℕ) : ℝ :=
  if ph.ends.length = 1 then (ph.ends.getD k ⟨0, 0⟩).g else (ph.ends.getD k ⟨0, 0⟩).g + ph.mix k

/-- End member `k` of the phase is present: the phase coexists and is pure, or contains it. -/
def Holds (ph : Phase) (k : ℕ) : Prop :=
  ph.nCoexist ≠ 0 ∧ k < ph.ends.length ∧ (ph.ends.length = 1 ∨ ph.comp k ≠ 0)

theorem mem_rowsOf (ph : Phase) (r : ℝ × (ℕ → ℝ)) :
    r ∈ rowsOf ph ↔ ∃ k, Holds ph k ∧ r = (potential ph k, (ph.ends.getD k ⟨0, 0⟩).toLiq) := by
  unfold rowsOf Holds potential
  by_cases hn : ph.nCoexist = 0
  · simp [hn]
  · rw [if_neg hn]
    split
    · next e h =>
      rw [h]
      simp only [List.mem_singleton, List.length_singleton, if_true, true_or, and_true]
      constructor
      · rintro rfl; exact ⟨0, ⟨hn, by norm_num⟩, rfl⟩
      · rintro ⟨k, ⟨-, hk⟩, rfl⟩
        obtain rfl : k = 0 := by omega
        rfl
    · next es h =>
      have h1 : ph.ends.length ≠ 1 := fun h' => by
        obtain ⟨e, he⟩ := List.length_eq_one_iff.1 h'
        exact h e he
      rw [List.mem_filterMap]
      constructor
      · rintro ⟨q, hq, hr⟩
        obtain ⟨hlt, he⟩ := List.mem_zipIdx' hq
        by_cases hc : ph.comp q.2 ≠ 0
        · rw [if_pos hc] at hr
          refine ⟨q.2, ⟨hn, hlt, Or.inr hc⟩, ?_⟩
          rw [if_neg h1, List.getD_eq_getElem _ _ hlt, ← he]
          exact (Option.some.inj hr).symm
        · rw [if_neg hc] at hr; cases hr
      · rintro ⟨k, ⟨-, hlt, hc⟩, rfl⟩
        have hc := hc.resolve_left h1
        refine ⟨(ph.ends[k], k), ?_, ?_⟩
        · rw [List.mk_mem_zipIdx_iff_getElem?, List.getElem?_eq_getElem hlt]
        · rw [if_pos hc, if_neg h1, List.getD_eq_getElem _ _ hlt]

theorem mem_rows (r : ℝ × (ℕ → ℝ)) : r ∈ rows s ↔
    ∃ ph ∈ s.phases, ∃ k, Holds ph k ∧ r = (potential ph k, (ph.ends.getD k ⟨0, 0⟩).toLiq) := by
  unfold rows
  rw [List.mem_flatMap]
  exact ⟨fun ⟨ph, h, h'⟩ => ⟨ph, h, (mem_rowsOf ph r).1 h'⟩, fun ⟨ph, h, h'⟩ => ⟨ph, h, (mem_rowsOf ph r).2 h'⟩⟩

/-- **C73** (the same in terms of the phases): there is no liquid, every end member present in a coexisting solid has the
potential that some potentials `lam` of the liquid components give it, and needs no component with an oxide that is not in
the bulk composition. Then the potentials computed give every end member present its potential: that of the standard state
for a pure phase, with the mixing part for a solution. -/
theorem C73_present_phases (hl : s.liquidMass = 0) (hd : Solved s d) (lam : ℕ → ℝ)
    (he : ∀ ph ∈ s.phases, ∀ k, Holds ph k →
      ∑ l ∈ range s.nlc, (ph.ends.getD k ⟨0, 0⟩).toLiq l * lam l = potential ph k)
    (hc : ∀ ph ∈ s.phases, ∀ k, Holds ph k → ∀ l < s.nlc, (ph.ends.getD k ⟨0, 0⟩).toLiq l ≠ 0 →
      ∀ n < s.nc, s.liqToOx l n ≠ 0 → s.bulk n ≠ 0) :
    ∀ ph ∈ s.phases, ∀ k, Holds ph k →
      ∑ l ∈ range s.nlc, (ph.ends.getD k ⟨0, 0⟩).toLiq l * muLiq s d junk l = potential ph k := by
  have key : ∀ r ∈ rows s, ∑ l ∈ range s.nlc, r.2 l * lam l = r.1 := fun r hr => by
    obtain ⟨ph, hp, k, hk, rfl⟩ := (mem_rows s r).1 hr
    exact he ph hp k hk
  have hE : Equilibrium s := by
    intro c h
    have e : ∀ j ∈ range (rows s).length, c j * ((rows s).getD j (0, 0)).1
        = ∑ l ∈ range s.nlc, c j * ((rows s).getD j (0, 0)).2 l * lam l := by
      intro j hj
      rw [List.getD_eq_getElem _ _ (mem_range.1 hj), ← key _ (List.getElem_mem _), mul_sum]
      exact sum_congr rfl fun l _ => by ring
    rw [sum_congr rfl e, sum_comm]
    refine sum_eq_zero fun l hl => ?_
    rw [← sum_mul, h l (mem_range.1 hl), zero_mul]
  have hC : Closed s := by
    intro r hr l hl ha
    obtain ⟨ph, hp, k, hk, rfl⟩ := (mem_rows s r).1 hr
    by_contra h0
    refine ha fun n hn hb => ?_
    by_contra h1
    exact hc ph hp k hk l hl h0 n hn h1 hb
  intro ph hp k hk
  exact C73_present s d junk hl hd hE hC _ ((mem_rows s _).2 ⟨ph, hp, k, hk, rfl⟩)

/-- What can be made from the solids present has the potential that the reaction gives it. -/
theorem dot_makes (hl : s.liquidMass = 0) (hd : Solved s d) (he : Equilibrium s) (hc : Closed s) {c nu : ℕ → ℝ}
    (hm : Makes s c nu) : ∑ k ∈ range s.nlc, nu k * muLiq s d junk k =
      ∑ j ∈ range (rows s).length, c j * ((rows s).getD j (0, 0)).1 := by
  have h : ∀ j ∈ range (rows s).length, c j * ((rows s).getD j (0, 0)).1 =
      ∑ k ∈ range s.nlc, c j * ((rows s).getD j (0, 0)).2 k * muLiq s d junk k := by
    intro j hj
    rw [← C73_present s d junk hl hd he hc _ (by rw [List.getD_eq_getElem _ _ (mem_range.1 hj)]; exact List.getElem_mem _), mul_sum]
    exact sum_congr rfl fun k _ => by ring
  rw [sum_congr rfl h, sum_comm]
  refine sum_congr rfl fun k hk => ?_
  rw [hm k (mem_range.1 hk), sum_mul]

theorem makes_closed (hl : s.liquidMass = 0) (hc : Closed s) {c : ℕ → ℝ} {e : EndMember} (hm : Makes s c e.toLiq) :
    ¬ Needs s e := by
  rintro ⟨l, hlt, hne, hp⟩
  apply hne
  have ha : ¬ Avail s l := by
    intro ha
    unfold present at hp
    rw [if_neg (by simp [hl]), if_pos ha] at hp
    exact one_ne_zero hp
  rw [hm l hlt]
  refine sum_eq_zero fun j hj => ?_
  rw [List.getD_eq_getElem _ _ (mem_range.1 hj), hc _ (List.getElem_mem _) l hlt ha, mul_zero]

/-! ### Affinities of end members -/

theorem needs_sum (mu : ℕ → ℝ) (e : EndMember) :
    ((needs s mu e).map fun r => r.1 * r.2.1).sum = ∑ l ∈ range s.nlc, e.toLiq l * mu l := by
  unfold needs
  rw [List.map_map]
  induction s.nlc with
  | zero => rfl
  | succ n ih => rw [List.range_succ, List.map_append, List.sum_append, sum_range_succ, ih]; simp

theorem excluded_iff (mu : ℕ → ℝ) (e : EndMember) : excluded s mu e = true ↔ Needs s e := by
  unfold excluded needs Needs
  rw [List.any_eq_true]
  constructor
  · rintro ⟨r, hr, h⟩
    obtain ⟨l, hl, rfl⟩ := List.mem_map.1 hr
    simp only [Bool.and_eq_true, decide_eq_true_eq] at h
    exact ⟨l, List.mem_range.1 hl, h⟩
  · rintro ⟨l, hl, h1, h2⟩
    exact ⟨_, List.mem_map.2 ⟨l, List.mem_range.2 hl, rfl⟩, by simp [h1, h2]⟩

theorem end_affinity (mu : ℕ → ℝ) (e : EndMember) :
    (Needs s e → pureAffinity (needs s mu e) e.g = 0) ∧
    (¬ Needs s e → pureAffinity (needs s mu e) e.g = e.g - ∑ l ∈ range s.nlc, e.toLiq l * mu l) := by
  have hx : (∃ r ∈ needs s mu e, r.1 ≠ 0 ∧ r.2.2 = 0) ↔ Needs s e := by
    rw [← excluded_iff s mu]
    unfold excluded
    rw [List.any_eq_true]
    simp
  rcases C07_pure_affinity (needs s mu e) e.g with ⟨h, h0⟩ | ⟨h, h0⟩
  · exact ⟨fun _ => h0, fun hn => absurd (hx.1 h) hn⟩
  · constructor
    · intro hn
      obtain ⟨r, hr, h1, h2⟩ := hx.2 hn
      exact absurd h2 (h r hr h1)
    · intro _
      rw [h0, needs_sum]

/-- **C73** (pure phases): the affinity of an absent pure phase is its Gibbs energy less that of its liquid components
at the potentials used, and zero if it needs a component that is absent. -/
theorem C73_pure (mu : ℕ → ℝ) (ph : Phase) (e : EndMember) (h : ph.ends = [e]) :
    (Needs s e → affinity (cand s mu ph) = 0) ∧
    (¬ Needs s e → affinity (cand s mu ph) = e.g - ∑ l ∈ range s.nlc, e.toLiq l * mu l) := by
  have : affinity (cand s mu ph) = pureAffinity (needs s mu e) e.g := by
    unfold cand affinity; rw [h]
  rw [this]
  exact end_affinity s mu e

/-- **C73** (solutions): the affinity of an absent solution phase is the one its estimator finds for the end members
that can be made of the components present, each with its standard potential less that of its liquid components, the
other end members being excluded; it is zero if the estimator fails. -/
theorem C73_solution (mu : ℕ → ℝ) (ph : Phase) (h : ph.ends.length ≠ 1) :
    ∃ (zero : ℕ → Bool) (m : ℕ → ℝ),
      (∀ k < ph.ends.length, zero k = true ↔ Needs s (ph.ends.getD k ⟨0, 0⟩)) ∧
      (∀ k < ph.ends.length, zero k = false → m k = (ph.ends.getD k ⟨0, 0⟩).g -
        ∑ l ∈ range s.nlc, (ph.ends.getD k ⟨0, 0⟩).toLiq l * mu l) ∧
      (∀ A r, ph.est zero m = some (A, r) → affinity (cand s mu ph) = A) ∧
      (ph.est zero m = none → affinity (cand s mu ph) = 0) := by
  refine ⟨fun k => excluded s mu (endAt ph k), fun k => pureAffinity (needs s mu (endAt ph k)) (endAt ph k).g,
    fun k _ => excluded_iff s mu _, ?_, ?_⟩
  · intro k _ hz
    refine (end_affinity s mu (endAt ph k)).2 ?_
    rw [← excluded_iff s mu]
    simp [hz]
  · have ha : affinity (cand s mu ph) = (solnEntry s mu ph).1 := by
      unfold cand affinity
      match hE : ph.ends with
      | [] => rfl
      | [e] => rw [hE] at h; exact absurd rfl h
      | _ :: _ :: _ => rfl
    rw [ha]
    constructor
    · intro A r he
      simp only [solnEntry, he]
    · intro he
      simp only [solnEntry, he]
      split <;> rfl

/-- **C73** (reactions, pure phases): below the solidus, with the solids in equilibrium, the affinity of an absent pure
phase is the Gibbs energy of any reaction that makes it from the solids present. -/
theorem C73_reaction (hl : s.liquidMass = 0) (hd : Solved s d) (he : Equilibrium s) (hc : Closed s) (ph : Phase)
    (e : EndMember) (h : ph.ends = [e]) (c : ℕ → ℝ) (hm : Makes s c e.toLiq) :
    affinity (cand s (muLiq s d junk) ph) = reactionEnergy s c e.g := by
  rw [(C73_pure s _ ph e h).2 (makes_closed s hl hc hm), dot_makes s d junk hl hd he hc hm]
  rfl

/-- **C73** (reactions, solutions): likewise the potentials handed to the estimator of an absent solution phase: an end
member that can be made from the solids present is not excluded, and its entry is the Gibbs energy of any reaction that
makes the pure end member from them. -/
theorem C73_reaction_solution (hl : s.liquidMass = 0) (hd : Solved s d) (he : Equilibrium s) (hc : Closed s) (ph : Phase)
    (h : ph.ends.length ≠ 1) (c : ℕ → ℕ → ℝ)
    (hm : ∀ k < ph.ends.length, Makes s (c k) (ph.ends.getD k ⟨0, 0⟩).toLiq) :
    ∃ (zero : ℕ → Bool) (m : ℕ → ℝ),
      (∀ k < ph.ends.length, zero k = false ∧ m k = reactionEnergy s (c k) (ph.ends.getD k ⟨0, 0⟩).g) ∧
      (∀ A r, ph.est zero m = some (A, r) → affinity (cand s (muLiq s d junk) ph) = A) ∧
      (ph.est zero m = none → affinity (cand s (muLiq s d junk) ph) = 0) := by
  obtain ⟨zero, m, h1, h2, h3⟩ := C73_solution s (muLiq s d junk) ph h
  refine ⟨zero, m, ?_, h3⟩
  intro k hk
  have hz : zero k = false := by
    rw [← Bool.not_eq_true, h1 k hk]
    exact makes_closed s hl hc (hm k hk)
  refine ⟨hz, ?_⟩
  rw [h2 k hk hz, dot_makes s d junk hl hd he hc (hm k hk)]
  rfl

/-- **C73** (reactions, liquid): likewise for the liquid below the solidus. A component whose oxides are in the bulk
composition is not excluded, and its entry is the Gibbs energy of any reaction that makes the pure liquid component
from the solids present; the others are excluded. -/
theorem C73_reaction_liquid (hl : s.liquidMass = 0) (hi : s.incLiq = true) (hd : Solved s d) (he : Equilibrium s)
    (hc : Closed s) :
    ∃ (zero : ℕ → Bool) (m : ℕ → ℝ),
      (∀ k < s.nlc, zero k = true ↔ ¬ Avail s k) ∧
      (∀ k < s.nlc, zero k = false → ∀ c, Makes s c (fun l => if l = k then 1 else 0) →
        m k = reactionEnergy s c (s.liqG k)) ∧
      (∀ A r, s.estLiq zero m = some (A, r) → liqAffinity s (muLiq s d junk) = A) ∧
      (s.estLiq zero m = none → liqAffinity s (muLiq s d junk) = 0) := by
  classical
  have hp : ∀ k, present s k = if Avail s k then 1 else 0 := by
    intro k; unfold present; rw [if_neg (by simp [hl])]
  refine ⟨fun k => decide (present s k = 0), liqMinus s (muLiq s d junk), ?_, ?_, ?_⟩
  · intro k _
    rw [decide_eq_true_iff, hp]
    split <;> simp_all
  · intro k hk hz c hm
    have hne : present s k ≠ 0 := by simpa using hz
    unfold liqMinus
    rw [if_pos hne]
    have := dot_makes s d junk hl hd he hc hm
    simp only [ite_mul, one_mul, zero_mul, sum_ite_eq', mem_range, hk, if_true] at this
    rw [this]
    rfl
  · unfold liqAffinity
    rw [if_pos ⟨hl, hi⟩]
    constructor
    · intro A r h
      rw [h]
    · intro h
      rw [h]

/-- **C73** (threshold): even if singular values are cut off, every end member of the solids present is reproduced
within `1e-8` times the norm of any set of potentials that fits them. -/
theorem C73_present_approx (hl : s.liquidMass = 0) (hs : IsSvd (rows s).length (cols s).length (mat s) d)
    (hn : (cols s).length ≤ (rows s).length) (hc : Closed s) (y : ℕ → ℝ)
    (hy : ∀ r ∈ rows s, ∑ k ∈ range s.nlc, r.2 k * y k = r.1) :
    ∀ r ∈ rows s, |∑ k ∈ range s.nlc, r.2 k * muLiq s d junk k - r.1| ≤
      1 / 10 ^ 8 * Real.sqrt (∑ k ∈ range s.nlc, y k ^ 2) := by
  classical
  intro r hr
  obtain ⟨j, hj, rfl⟩ := List.mem_iff_getElem.1 hr
  rw [dot_noLiquid s d junk hl hn]
  have hy' : ∀ j < (rows s).length, ∑ k ∈ range (cols s).length, mat s j k * y ((cols s).getD k 0) = rhs s j := by
    intro j hj
    have h1 := hy _ (List.getElem_mem hj)
    unfold mat rhs
    rw [List.getD_eq_getElem _ _ hj, ← h1, sum_cols s fun k _ => ((rows s)[j]).2 k * y k]
    refine sum_congr rfl fun k hk => ?_
    split
    · rfl
    · rw [hc _ (List.getElem_mem hj) k (mem_range.1 hk) ‹_›, zero_mul]
  have h2 := solve_approx (b := rhs s) hs (fun l => y ((cols s).getD l 0)) hy'
  have h3 : ∑ l ∈ range (cols s).length, y ((cols s).getD l 0) ^ 2 ≤ ∑ k ∈ range s.nlc, y k ^ 2 := by
    rw [sum_cols s fun k _ => y k ^ 2]
    refine sum_le_sum fun k _ => ?_
    split
    · exact le_rfl
    · positivity
  have h4 : (rhs s j - ∑ k ∈ range (cols s).length, mat s j k * svSolve (rows s).length (cols s).length d (rhs s) k) ^ 2
      ≤ 1 / 10 ^ 16 * ∑ k ∈ range s.nlc, y k ^ 2 :=
    le_trans (le_trans (single_le_sum (f := fun j => (rhs s j - ∑ k ∈ range (cols s).length, mat s j k *
      svSolve (rows s).length (cols s).length d (rhs s) k) ^ 2) (fun _ _ => sq_nonneg _) (mem_range.2 hj)) h2)
      (mul_le_mul_of_nonneg_left h3 (by norm_num))
  have h5 := Real.abs_le_sqrt h4
  rw [Real.sqrt_mul (by norm_num), show (1:ℝ) / 10 ^ 16 = (1 / 10 ^ 8) ^ 2 by norm_num, Real.sqrt_sq (by norm_num)] at h5
  rw [abs_sub_comm]
  unfold mat rhs at h5
  simp only [List.getD_eq_getElem _ _ hj] at h5
  exact h5

/-- **C73** (solids not in equilibrium): the potentials are those that fit the end members of the solids present best
in the sense of least squares. -/
theorem C73_least_squares (hl : s.liquidMass = 0) (hd : Solved s d) (hc : Closed s) (y : ℕ → ℝ) :
    ∑ j ∈ range (rows s).length, (((rows s).getD j (0, 0)).1 -
        ∑ k ∈ range s.nlc, ((rows s).getD j (0, 0)).2 k * muLiq s d junk k) ^ 2 ≤
      ∑ j ∈ range (rows s).length, (((rows s).getD j (0, 0)).1 -
        ∑ k ∈ range s.nlc, ((rows s).getD j (0, 0)).2 k * y k) ^ 2 := by
  classical
  have h := least_squares (b := rhs s) hd.svd hd.gap fun l => y ((cols s).getD l 0)
  have e : ∀ j ∈ range (rows s).length, ∑ k ∈ range (cols s).length, mat s j k * y ((cols s).getD k 0) =
      ∑ k ∈ range s.nlc, ((rows s).getD j (0, 0)).2 k * y k := by
    intro j hj
    have hj := mem_range.1 hj
    unfold mat
    rw [sum_cols s fun k _ => ((rows s).getD j (0, 0)).2 k * y k]
    refine sum_congr rfl fun k hk => ?_
    split
    · rfl
    · rw [List.getD_eq_getElem _ _ hj, hc _ (List.getElem_mem hj) k (mem_range.1 hk) ‹_›, zero_mul]
  refine le_trans (le_of_eq ?_) (le_trans h (le_of_eq (sum_congr rfl fun j hj => by rw [e j hj]; rfl)))
  refine sum_congr rfl fun j _ => ?_
  rw [dot_noLiquid s d junk hl hd.enough]
  rfl

/-! ### Oxygen buffer -/

/-- Potential of oxygen at the fugacity `10^fo2`. -/
noncomputable def bufferO2 : ℝ := s.oxygenG + Thermo.MuO2.R * s.T * Real.log (10 ^ s.fo2)

/-- **C73** (oxygen buffer): with an oxygen buffer and a liquid, the potentials used put the reaction
Fe2SiO4 + 1/2 O2 = Fe2O3 + SiO2 (in pMELTS 1/4 Si4O8) at equilibrium with oxygen of the imposed fugacity; the potential
of no component other than Fe2O3 is changed, and without a buffer that of none. -/
theorem C73_buffer (hl : s.liquidMass ≠ 0) :
    (s.buffered = true → muLiq s d junk 5 + bufferO2 s / 2 =
      muLiq s d junk 3 + muLiq s d junk 0 / (if s.pMelts then 4 else 1)) ∧
    (∀ i, (s.buffered = false ∨ i ≠ 3) → muLiq s d junk i =
      s.liqMix i + if s.liquidComp i ≠ 0 then s.liqG i else 0) := by
  have hb : bufferO2 s = muO2 s := by
    unfold bufferO2 muO2
    rw [Real.log_rpow (by norm_num)]; ring
  have e : muLiq s d junk = withLiquid s := by unfold muLiq; rw [if_pos hl]
  have ho : ∀ i, ownMu s i = s.liqMix i + if s.liquidComp i ≠ 0 then s.liqG i else 0 := by
    intro i; unfold ownMu; split <;> simp
  rw [e]
  constructor
  · intro h
    rw [hb]
    unfold withLiquid
    rw [if_pos h]
    have h5 : Function.update (ownMu s) 3 (ownMu s 3 - deltaG s) 5 = ownMu s 5 := Function.update_of_ne (by norm_num) _ _
    have h0 : Function.update (ownMu s) 3 (ownMu s 3 - deltaG s) 0 = ownMu s 0 := Function.update_of_ne (by norm_num) _ _
    rw [h5, h0, Function.update_self]
    unfold deltaG
    cases s.pMelts <;> simp <;> ring
  · intro i h
    rw [← ho]
    unfold withLiquid
    split
    · rcases h with h | h
      · simp_all
      · exact Function.update_of_ne h _ _
    · rfl

/-- **C73** (effect of the buffer): for the same liquid, raising the imposed log fO2 by `δ` lowers the affinity of an
absent pure phase by RT ln(10) δ/2 per mole of Fe2O3 in it (and raises it where Fe2O3 enters with a negative sign). -/
theorem C73_buffer_affinity (hl : s.liquidMass ≠ 0) (hb : s.buffered = true) (δ : ℝ) (ph : Phase) (e : EndMember)
    (h : ph.ends = [e]) (hn : ¬ Needs s e) (h3 : 3 < s.nlc) :
    affinity (cand { s with fo2 := s.fo2 + δ } (muLiq { s with fo2 := s.fo2 + δ } d junk) ph) =
      affinity (cand s (muLiq s d junk) ph) - e.toLiq 3 * (Thermo.MuO2.R * s.T * Real.log 10 * δ / 2) := by
  rw [(C73_pure s _ ph e h).2 hn]
  rw [(C73_pure { s with fo2 := s.fo2 + δ } _ ph e h).2 hn]
  have key : ∀ k, muLiq { s with fo2 := s.fo2 + δ } d junk k = muLiq s d junk k +
      if k = 3 then Thermo.MuO2.R * s.T * Real.log 10 * δ / 2 else 0 := by
    intro k
    by_cases hk : k = 3
    · subst hk
      have h1 := (C73_buffer s d junk hl).1 hb
      have h2 := (C73_buffer { s with fo2 := s.fo2 + δ } d junk hl).1 hb
      have e0 : muLiq { s with fo2 := s.fo2 + δ } d junk 0 = muLiq s d junk 0 := by
        rw [(C73_buffer s d junk hl).2 0 (Or.inr (by norm_num)),
          (C73_buffer { s with fo2 := s.fo2 + δ } d junk hl).2 0 (Or.inr (by norm_num))]
      have e5 : muLiq { s with fo2 := s.fo2 + δ } d junk 5 = muLiq s d junk 5 := by
        rw [(C73_buffer s d junk hl).2 5 (Or.inr (by norm_num)),
          (C73_buffer { s with fo2 := s.fo2 + δ } d junk hl).2 5 (Or.inr (by norm_num))]
      have eb : bufferO2 { s with fo2 := s.fo2 + δ } = bufferO2 s + Thermo.MuO2.R * s.T * Real.log 10 * δ := by
        unfold bufferO2
        simp only
        rw [Real.log_rpow (by norm_num), Real.log_rpow (by norm_num)]; ring
      rw [e0, e5, eb] at h2
      simp only [if_true]
      simp only at h2
      linarith
    · rw [if_neg hk, add_zero, (C73_buffer s d junk hl).2 k (Or.inr hk),
        (C73_buffer { s with fo2 := s.fo2 + δ } d junk hl).2 k (Or.inr hk)]
  simp only
  rw [sum_congr rfl fun k _ => by rw [key k]]
  simp only [mul_add, sum_add_distrib, mul_ite, mul_zero, sum_ite_eq', mem_range, h3, if_true]
  ring

/-! ### The flag -/

/-- **C73** (flag): supersaturation is reported exactly if a phase that is absent, not suppressed and not already
cycled twice, or an admitted liquid below the solidus, has a negative affinity. -/
theorem C73_flag : flag s d junk = true ↔
    (∃ k ph, s.phases[k]? = some ph ∧ s.inc k = true ∧ ph.cyl < 2 ∧ ph.amount = 0 ∧
      affinity (cand s (muLiq s d junk) ph) < 0) ∨
    (s.liquidMass = 0 ∧ s.incLiq = true ∧ liqAffinity s (muLiq s d junk) < 0) := by
  unfold flag hasSupersat
  rw [Bool.or_eq_true, List.any_eq_true, decide_eq_true_iff]
  have hrow : (∃ r ∈ table s d junk, (r.1 && decide (r.2 < 0)) = true) ↔
      ∃ k ph, s.phases[k]? = some ph ∧ s.inc k = true ∧ ph.cyl < 2 ∧ ph.amount = 0 ∧
      affinity (cand s (muLiq s d junk) ph) < 0 := by
    constructor
    · rintro ⟨⟨b, y⟩, hr, h⟩
      simp only [Bool.and_eq_true, decide_eq_true_eq] at h
      obtain ⟨rfl, hy⟩ := h
      obtain ⟨i, hi⟩ := List.mem_iff_getElem?.1 hr
      obtain ⟨k, _, c, hk, hadm, ha, _⟩ := (row_supersat s.inc (cands s d junk) i y hy).1 hi
      unfold cands at hk
      rw [List.getElem?_map, Option.map_eq_some_iff] at hk
      obtain ⟨ph, hph, rfl⟩ := hk
      exact ⟨k, ph, hph, hadm.1, hadm.2.1, hadm.2.2, by rw [ha]; exact hy⟩
    · rintro ⟨k, ph, hk, h1, h2, h3, h4⟩
      have : (table s d junk)[rowIndex (cands s d junk) k]? =
          some (true, affinity (cand s (muLiq s d junk) ph)) :=
        (row_supersat s.inc (cands s d junk) _ _ h4).2 ⟨k, rfl, cand s (muLiq s d junk) ph,
          by unfold cands; rw [List.getElem?_map, hk]; rfl, ⟨h1, h2, h3⟩, rfl, h4⟩
      exact ⟨_, List.mem_of_getElem? this, by simp [h4]⟩
  rw [hrow]
  have hz : liqAffinity s (muLiq s d junk) < 0 → s.liquidMass = 0 ∧ s.incLiq = true := by
    intro h
    by_contra hn
    unfold liqAffinity at h
    rw [if_neg hn] at h
    exact lt_irrefl _ h
  constructor
  · rintro (h | h)
    · exact Or.inl h
    · exact Or.inr ⟨(hz h).1, (hz h).2, h⟩
  · rintro (h | h)
    · exact Or.inl h
    · exact Or.inr h.2.2

/-- **C73** (nucleation below the solidus): with the solids in equilibrium, the pure phase chosen for nucleation can only
be one that forms from the solids present with a release of Gibbs energy, and per formula unit no other admitted pure
phase releases more. -/
theorem C73_nucleation (hl : s.liquidMass = 0) (hd : Solved s d) (he : Equilibrium s) (hc : Closed s) (i : ℕ)
    (hch : choose (table s d junk) (liqAffinity s (muLiq s d junk)) s.incLiq = .solid i) :
    ∃ k ph, s.phases[k]? = some ph ∧ i = rowIndex (cands s d junk) k ∧ s.inc k = true ∧ ph.amount = 0 ∧
      ∀ e c, ph.ends = [e] → Makes s c e.toLiq →
        reactionEnergy s c e.g < 0 ∧
        ∀ k' ph' e' c', s.phases[k']? = some ph' → s.inc k' = true → ph'.cyl < 2 → ph'.amount = 0 → ph'.ends = [e'] →
          Makes s c' e'.toLiq → reactionEnergy s c e.g ≤ reactionEnergy s c' e'.g := by
  obtain ⟨k, a, hi, ⟨cd, hk, hadm, ha, hneg⟩, hmin, _⟩ :=
    (C07_nucleation_choice s.inc (cands s d junk) (liqAffinity s (muLiq s d junk)) s.incLiq).1 i hch
  unfold cands at hk
  rw [List.getElem?_map, Option.map_eq_some_iff] at hk
  obtain ⟨ph, hph, rfl⟩ := hk
  refine ⟨k, ph, hph, hi, hadm.1, hadm.2.2, ?_⟩
  intro e c hE hm
  have h1 := C73_reaction s d junk hl hd he hc ph e hE c hm
  rw [ha] at h1
  rw [← h1]
  refine ⟨hneg, ?_⟩
  intro k' ph' e' c' hk' hi' hc' ha' hE' hm'
  rw [← C73_reaction s d junk hl hd he hc ph' e' hE' c' hm']
  refine hmin k' _ ?_ ⟨hi', hc', ha'⟩
  unfold cands
  rw [List.getElem?_map, hk']
  rfl

end Magma.Engine.Evaluate
