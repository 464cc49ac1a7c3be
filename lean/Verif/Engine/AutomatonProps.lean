import Verif.Engine.Automaton

/-!
Properties C09, C45, C46 of the step/stage automaton of `silmin()`, and concrete runs for C08.
-/

namespace Magma.Engine.Auto

variable {α : Type}

/-! ### C45: each phase is nucleated at most twice per equilibration -/

/-- Once `cylSolids` has been cleared. -/
def Checked (s : St α) : Prop :=
  s.step ≠ .changeComposition ∧ s.step ≠ .changeTP ∧ s.step ≠ .checkSaturation

/-- Steps of the quadratic iteration. -/
def InLoop : Step → Bool
  | .projectConstraints | .preQuadratic | .constructQuadratic | .solveQuadratic
  | .reassembleSolution | .linearSearch | .dropPhase | .convergenceTest => true
  | _ => false

/-- Invariant for C45. -/
structure CycInv (s : St α) : Prop where
  before : ¬ Checked s → ∀ n, s.adds n = 0
  bal : ∀ n, s.adds n ≤ s.sil.cyl n + s.sil.copies n
  two : ∀ n, s.adds n ≤ 2
  best : InLoop s.step = true → s.acceptable = true →
    s.best.copies = s.sil.copies ∧ s.best.cyl = s.sil.cyl

theorem release_adds (E : Env α) (i : In α) (s : St α) : (release E i s).adds = s.adds := by
  unfold release; split <;> rfl
theorem release_copies (E : Env α) (i : In α) (s : St α) :
    (release E i s).sil.copies = s.sil.copies := by
  unfold release; split <;> rfl
theorem release_cyl (E : Env α) (i : In α) (s : St α) : (release E i s).sil.cyl = s.sil.cyl := by
  unfold release; split <;> rfl
theorem release_flags (E : Env α) (i : In α) (s : St α) :
    (release E i s).sil.flags = s.sil.flags := by
  unfold release; split <;> rfl
theorem release_stage (E : Env α) (i : In α) (s : St α) : (release E i s).stage = s.stage := by
  unfold release; split <;> rfl
theorem release_fo2Old (E : Env α) (i : In α) (s : St α) : (release E i s).fo2Old = s.fo2Old := by
  unfold release; split <;> rfl

theorem stageMachine_adds (s : St α) : (stageMachine s).adds = s.adds := by
  unfold stageMachine; split <;> rfl
theorem stageMachine_copies (s : St α) : (stageMachine s).sil.copies = s.sil.copies := by
  unfold stageMachine; split <;> rfl
theorem stageMachine_cyl (s : St α) : (stageMachine s).sil.cyl = s.sil.cyl := by
  unfold stageMachine; split <;> rfl
theorem stageMachine_best (s : St α) : (stageMachine s).best = s.best := by
  unfold stageMachine; split <;> rfl
theorem stageMachine_acc (s : St α) : (stageMachine s).acceptable = s.acceptable := by
  unfold stageMachine; split <;> rfl

theorem CycInv.stageMachine {s : St α} (h : CycInv s) (hs : s.step = .convergenceTest) :
    CycInv (stageMachine s) := by
  have hst := stageMachine_step s hs
  refine ⟨?_, ?_, ?_, ?_⟩
  · intro hc
    exfalso; apply hc
    rcases hst with h | h <;> simp [Checked, h]
  · intro n; rw [stageMachine_adds, stageMachine_copies, stageMachine_cyl]; exact h.bal n
  · intro n; rw [stageMachine_adds]; exact h.two n
  · intro _ ha
    rw [stageMachine_acc] at ha
    rw [stageMachine_best, stageMachine_copies, stageMachine_cyl]
    exact h.best (by simp [InLoop, hs]) ha

/-- A state reset by `resetQuad` and sent to PROJECT_CONSTRAINTS keeps the invariant. -/
theorem CycInv.reset {s : St α} (hb : ∀ n, s.adds n ≤ s.sil.cyl n + s.sil.copies n)
    (h2 : ∀ n, s.adds n ≤ 2) : CycInv { resetQuad s with step := Step.projectConstraints } :=
  ⟨fun hc => absurd (by simp [Checked]) hc, hb, h2, fun _ ha => by simp [resetQuad] at ha⟩

theorem CycInv.call {E : Env α} {i : In α} {s s' : St α} (h : CycInv s)
    (hc : call E i s = (s', false)) : CycInv s' := by
  have hs' : s' = (Auto.call E i s).1 := by rw [hc]
  have hb' : (Auto.call E i s).2 = false := by rw [hc]
  clear hc
  subst hs'
  unfold Auto.call at hb' ⊢
  split
  · -- changeComposition
    rename_i hst
    have h0 := h.before (by simp [Checked, hst])
    exact ⟨fun _ => h0, fun n => by simp [h0], fun n => by simp [h0], fun hc => by simp [InLoop] at hc⟩
  · rename_i hst
    have h0 := h.before (by simp [Checked, hst])
    have h0' : ∀ n, (release E i { s with sil := { s.sil with asm := i.asm } }).adds n = 0 := by
      intro n; rw [release_adds]; exact h0 n
    exact ⟨fun _ => h0', fun n => by simp [h0'], fun n => by simp [h0'], fun hc => by simp [InLoop] at hc⟩
  · rename_i hst
    have h0 := h.before (by simp [Checked, hst])
    exact ⟨fun _ => h0, fun n => by simp [h0], fun n => by simp [h0], fun hc => by simp [InLoop] at hc⟩
  · -- addPhase
    rename_i hst
    simp only [hst] at hb'
    unfold addStep at hb' ⊢
    split
    · rename_i hsup
      simp only [hsup, if_true] at hb'
      split
      · rename_i ha
        simp [ha] at hb'
      · split
        · rename_i n hn
          apply CycInv.reset
          · intro m
            rw [release_adds, release_copies, release_cyl]
            simp only [Function.update_apply]
            split
            · rename_i hm
              subst hm
              have := h.bal m
              rw [hn.1] at this
              omega
            · exact h.bal m
          · intro m
            rw [release_adds]
            simp only [Function.update_apply]
            split
            · rename_i hm
              subst hm
              have := h.bal m
              rw [hn.1] at this
              omega
            · exact h.two m
        · exact CycInv.reset h.bal h.two
      · apply CycInv.reset
        · intro m
          rw [release_adds, release_copies, release_cyl]
          exact h.bal m
        · intro m
          rw [release_adds]
          exact h.two m
    · exact CycInv.reset h.bal h.two
  · -- project
    rename_i hst
    have hbest := h.best (by simp [InLoop, hst])
    split
    · exact ⟨fun hc => absurd (by simp [Checked]) hc, h.bal, h.two,
        fun _ ha => hbest ha⟩
    · exact ⟨fun hc => absurd (by simp [Checked]) hc, h.bal, h.two,
        fun _ ha => hbest ha⟩
  · rename_i hst
    have hbest := h.best (by simp [InLoop, hst])
    exact ⟨fun hc => absurd (by simp [Checked]) hc, h.bal, h.two,
        fun _ ha => hbest ha⟩
  · rename_i hst
    have hbest := h.best (by simp [InLoop, hst])
    exact ⟨fun hc => absurd (by simp [Checked]) hc, h.bal, h.two,
        fun _ ha => hbest ha⟩
  · rename_i hst
    have hbest := h.best (by simp [InLoop, hst])
    exact ⟨fun hc => absurd (by simp [Checked]) hc, h.bal, h.two,
        fun _ ha => hbest ha⟩
  · -- reassemble
    rename_i hst
    simp only [hst] at hb'
    have hbest := h.best (by simp [InLoop, hst])
    have hsave : ∀ x, CycInv { saveBest E i s with step := x } ∨ ¬ (Checked { s with step := x }) := by
      intro x
      by_cases hx : Checked { s with step := x }
      · left
        unfold saveBest
        split
        · exact ⟨fun hc => absurd hx hc, h.bal, h.two, fun _ _ => ⟨rfl, rfl⟩⟩
        · exact ⟨fun hc => absurd hx hc, h.bal, h.two,
            fun _ ha => hbest ha⟩
      · right; exact hx
    have hconv := (hsave .convergenceTest).resolve_right (by simp [Checked])
    have hlin := (hsave .linearSearch).resolve_right (by simp [Checked])
    unfold reassemble at hb' ⊢
    dsimp only at hb' ⊢
    split
    · exact hconv.stageMachine rfl
    · split
      · split
        · exact hconv.stageMachine rfl
        · split
          · rename_i hacc
            apply CycInv.stageMachine _ rfl
            have hb := hconv.best (by simp [InLoop]) hacc
            refine ⟨fun hc => absurd (by simp [Checked]) hc, ?_, ?_, ?_⟩
            · intro n
              have := hconv.bal n
              simp only at this ⊢
              rw [hb.1, hb.2]; exact this
            · exact hconv.two
            · intro _ _; exact ⟨rfl, rfl⟩
          · rename_i h1 h2 h3 h4
            simp [h1, h2, h3, h4] at hb'
      · exact hlin
  · -- linearSearch
    rename_i hst
    have hbest := h.best (by simp [InLoop, hst])
    dsimp only
    split
    · apply CycInv.stageMachine _ rfl
      exact ⟨fun hc => absurd (by simp [Checked]) hc, h.bal, h.two,
        fun _ ha => hbest ha⟩
    · exact ⟨fun hc => absurd (by simp [Checked]) hc, h.bal, h.two,
        fun _ ha => hbest ha⟩
  · -- drop
    rename_i hst
    have hbest := h.best (by simp [InLoop, hst])
    unfold dropStep
    dsimp only
    split
    · have hbal : ∀ n, s.adds n ≤ (s.sil.cyl n + min (i.drops n) (s.sil.copies n)) +
          (s.sil.copies n - min (i.drops n) (s.sil.copies n)) := by
        intro n
        have := h.bal n
        have := min_le_right (i.drops n) (s.sil.copies n)
        omega
      split
      · apply CycInv.reset
        · intro n
          rw [release_adds, release_copies, release_cyl]
          exact hbal n
        · intro n
          rw [release_adds]
          exact h.two n
      · exact CycInv.reset hbal h.two
    · refine ⟨fun hc => ?_, h.bal, h.two, fun _ ha => hbest ha⟩
      exfalso; apply hc
      simp only [Checked]
      split <;> simp
  · -- convergenceTest
    exact ⟨fun hc => absurd (by simp [Checked]) hc, h.bal, h.two, fun hc => by simp [InLoop] at hc⟩
  · -- verify
    rename_i hst
    unfold verifyStep
    split
    · exact ⟨fun hc => absurd (by simp [Checked]) hc, h.bal, h.two, fun hc => by simp [InLoop] at hc⟩
    · split
      · apply CycInv.reset
        · intro n
          rw [release_adds, release_copies, release_cyl]
          have := h.bal n
          dsimp only
          omega
        · intro n
          rw [release_adds]
          exact h.two n
      · split
        · exact CycInv.reset h.bal h.two
        · exact ⟨fun hc => absurd (by simp [Checked]) hc, h.bal, h.two,
            fun hc => by simp [InLoop] at hc⟩
  · exact ⟨fun hc => absurd (by simp [Checked]) hc, h.bal, h.two,
      fun hc => by simp [InLoop] at hc⟩
  · exact h

theorem CycInv.reach {E : Env α} {s0 s : St α} (h0 : CycInv s0) (h : Reach E s0 s) : CycInv s := by
  induction h with
  | refl => exact h0
  | next i _ hc ih => exact ih.call hc

/-- C45. In one equilibration no solid phase is added to the assemblage more than twice, however
often phases disappear, exsolve or the iteration is restarted. -/
theorem C45_nucleated_at_most_twice (E : Env α) (F : Con → Bool) (B : Option ℕ) (s0 s : St α)
    (h0 : Start s0 F B) (h : Reach E s0 s) (n : ℕ) : s.adds n ≤ 2 := by
  refine (CycInv.reach (s0 := s0) ?_ h).two n
  exact ⟨fun _ => h0.adds, fun n => by simp [h0.adds], fun n => by simp [h0.adds],
    fun hc => by simp [InLoop, h0.step] at hc⟩

/-! ### C09: the constraint switches -/

/-- Steps at which a saved best state can still be restored before it is reset. -/
def InIter : Step → Bool
  | .projectConstraints | .preQuadratic | .constructQuadratic | .solveQuadratic
  | .reassembleSolution | .linearSearch | .dropPhase => true
  | _ => false

/-- Steps after convergence. -/
def After : Step → Bool
  | .convergenceTest | .verifySaturation | .outputResults | .updateSystem => true
  | _ => false

/-- The buffer is the requested one, or the code released it. -/
def Good (B : Option ℕ) (s : St α) (x : Option ℕ) : Prop := x = B ∨ (s.released = true ∧ x = none)

/-- Equal except possibly for constraint `k`. -/
def OffEq (k : Con) (f g : Con → Bool) : Prop := ∀ j, j ≠ k → f j = g j

/-- Invariant for C09. -/
def ConInv (F : Con → Bool) (B : Option ℕ) (s : St α) : Prop :=
  match s.stage with
  | .pre => s.sil.flags = F ∧ Good B s s.sil.fo2 ∧
      (InIter s.step = true → s.acceptable = true → s.best.flags = F ∧ Good B s s.best.fo2)
  | .one k => F k = true ∧ OffEq k s.sil.flags F ∧ Good B s s.sil.fo2 ∧ After s.step = false ∧
      (InIter s.step = true → s.acceptable = true → OffEq k s.best.flags F ∧ Good B s s.best.fo2)
  | .two k => F k = true ∧ OffEq k s.sil.flags F ∧ Good B s s.fo2Old ∧ After s.step = false ∧
      (InIter s.step = true → s.acceptable = true → OffEq k s.best.flags F)
  | .three k => F k = true ∧ OffEq k s.sil.flags F ∧ Good B s s.fo2Old ∧ After s.step = false ∧
      (InIter s.step = true → s.acceptable = true → OffEq k s.best.flags F)

/-- What `ConInv` asks of the state, without the conditions tied to the current step. -/
def ConBase (F : Con → Bool) (B : Option ℕ) (s : St α) : Prop :=
  match s.stage with
  | .pre => s.sil.flags = F ∧ Good B s s.sil.fo2
  | .one k => F k = true ∧ OffEq k s.sil.flags F ∧ Good B s s.sil.fo2
  | .two k => F k = true ∧ OffEq k s.sil.flags F ∧ Good B s s.fo2Old
  | .three k => F k = true ∧ OffEq k s.sil.flags F ∧ Good B s s.fo2Old

/-- What `ConInv` asks of the saved state. -/
def BestOk (F : Con → Bool) (B : Option ℕ) (s : St α) : Prop :=
  match s.stage with
  | .pre => s.best.flags = F ∧ Good B s s.best.fo2
  | .one k => OffEq k s.best.flags F ∧ Good B s s.best.fo2
  | .two k => OffEq k s.best.flags F
  | .three k => OffEq k s.best.flags F

theorem conInv_iff (F : Con → Bool) (B : Option ℕ) (s : St α) :
    ConInv F B s ↔ ConBase F B s ∧ (s.stage ≠ .pre → After s.step = false) ∧
      (InIter s.step = true → s.acceptable = true → BestOk F B s) := by
  unfold ConInv ConBase BestOk
  split <;> simp_all [and_assoc]

theorem Good.mono {B : Option ℕ} {s t : St α} {x : Option ℕ} (h : Good B s x)
    (hr : s.released = true → t.released = true) : Good B t x := by
  rcases h with h | ⟨h, h'⟩
  · left; exact h
  · right; exact ⟨hr h, h'⟩

/-- `ConBase` only depends on stage, switches, buffer, `fo2Old` and the release ghost. -/
theorem ConBase.congr {F : Con → Bool} {B : Option ℕ} {s t : St α} (h : ConBase F B s)
    (h1 : t.stage = s.stage) (h2 : t.sil.flags = s.sil.flags) (h3 : t.sil.fo2 = s.sil.fo2)
    (h4 : t.fo2Old = s.fo2Old) (h5 : t.released = s.released) : ConBase F B t := by
  unfold ConBase at *
  rw [h1, h2, h3, h4]
  simp only [Good, h5] at *
  exact h

theorem BestOk.congr {F : Con → Bool} {B : Option ℕ} {s t : St α} (h : BestOk F B s)
    (h1 : t.stage = s.stage) (h2 : t.best = s.best) (h5 : t.released = s.released) :
    BestOk F B t := by
  unfold BestOk at *
  rw [h1, h2]
  simp only [Good, h5] at *
  exact h

theorem ConBase.release {F : Con → Bool} {B : Option ℕ} {E : Env α} {i : In α} {s : St α}
    (h : ConBase F B s) : ConBase F B (release E i s) := by
  unfold Auto.release
  split
  · unfold ConBase at *
    dsimp only
    have hg : ∀ x, Good B s x → Good B { s with sil := { s.sil with fo2 := none }, released := true } x :=
      fun x hx => hx.mono (fun _ => rfl)
    have hn : Good B { s with sil := { s.sil with fo2 := none }, released := true } none :=
      Or.inr ⟨rfl, rfl⟩
    split <;> simp_all
  · exact h

theorem offEq_setFlag {k : Con} {s : Sil α} {b : Bool} {F : Con → Bool}
    (h : OffEq k s.flags F) : OffEq k (setFlag s k b).flags F := by
  intro j hj
  simp only [setFlag, Function.update_apply, hj, if_false]
  exact h j hj

theorem offEq_full {k : Con} {s : Sil α} {F : Con → Bool} (hk : F k = true)
    (h : OffEq k s.flags F) : (setFlag s k true).flags = F := by
  funext j
  by_cases hj : j = k
  · subst hj; simp [setFlag, hk]
  · simp only [setFlag, Function.update_apply, hj, if_false]; exact h j hj

theorem ConInv.stageMachine {F : Con → Bool} {B : Option ℕ} {s : St α}
    (h : ConBase F B s) (hbest : s.acceptable = true → BestOk F B s)
    (hs : s.step = .convergenceTest) : ConInv F B (stageMachine s) := by
  rw [conInv_iff]
  unfold Auto.stageMachine
  unfold ConBase at h
  unfold BestOk at hbest
  split
  · rename_i hst
    rw [hst] at h
    refine ⟨?_, ?_, ?_⟩
    · unfold ConBase; rw [hst]; exact h
    · intro hc; exact absurd hst hc
    · intro hc; rw [hs] at hc; simp [InIter] at hc
  · rename_i k hst
    rw [hst] at h hbest
    refine ⟨⟨h.1, offEq_setFlag h.2.1, h.2.2⟩, fun _ => rfl, fun _ ha => ?_⟩
    exact (hbest ha).1
  · rename_i k hst
    rw [hst] at h hbest
    exact ⟨⟨h.1, offEq_setFlag h.2.1, h.2.2⟩, fun _ => rfl, fun _ ha => hbest ha⟩
  · rename_i k hst
    rw [hst] at h hbest
    refine ⟨⟨?_, h.2.2⟩, fun hc => absurd rfl hc, fun hc => ?_⟩
    · exact offEq_full (s := { s.sil with fo2 := s.fo2Old }) h.1 h.2.1
    · dsimp only at hc; rw [hs] at hc; simp [InIter] at hc

/-- A reset state sent to PROJECT_CONSTRAINTS. -/
theorem ConInv.reset {F : Con → Bool} {B : Option ℕ} {s : St α} (h : ConBase F B s) :
    ConInv F B { resetQuad s with step := Step.projectConstraints } := by
  rw [conInv_iff]
  refine ⟨h.congr rfl rfl rfl rfl rfl, fun _ => rfl, fun _ ha => ?_⟩
  simp [resetQuad] at ha

theorem ConBase.saveBest {F : Con → Bool} {B : Option ℕ} {E : Env α} {i : In α} {s : St α}
    (h : ConBase F B s) : ConBase F B (saveBest E i s) := by
  unfold Auto.saveBest
  split
  · exact h.congr rfl rfl rfl rfl rfl
  · exact h

/-- The saved state is as good as the current one, except that in stage one the constraint is off
and in stage two the buffer is off. -/
theorem BestOk.ofSil {F : Con → Bool} {B : Option ℕ} {s : St α} (h : ConBase F B s)
    (hb : s.best = s.sil) : BestOk F B s := by
  unfold BestOk
  unfold ConBase at h
  rw [hb]
  split <;> simp_all

theorem ConInv.call {F : Con → Bool} {B : Option ℕ} {E : Env α} {i : In α} {s s' : St α}
    (h : ConInv F B s) (hc : call E i s = (s', false)) : ConInv F B s' := by
  have hs' : s' = (Auto.call E i s).1 := by rw [hc]
  have hb' : (Auto.call E i s).2 = false := by rw [hc]
  clear hc
  subst hs'
  rw [conInv_iff] at h
  obtain ⟨hbase, hafter, hbest⟩ := h
  unfold Auto.call at hb' ⊢
  split
  · rw [conInv_iff]
    exact ⟨hbase.congr rfl rfl rfl rfl rfl, fun _ => rfl, fun hc => by simp [InIter] at hc⟩
  · rw [conInv_iff]
    refine ⟨?_, fun _ => rfl, fun hc => by simp [InIter] at hc⟩
    have : ConBase F B { s with sil := { s.sil with asm := i.asm } } :=
      hbase.congr rfl rfl rfl rfl rfl
    exact (this.release (E := E) (i := i)).congr rfl rfl rfl rfl rfl
  · rw [conInv_iff]
    exact ⟨hbase.congr rfl rfl rfl rfl rfl, fun _ => rfl, fun hc => by simp [InIter] at hc⟩
  · rename_i hst
    simp only [hst] at hb'
    unfold addStep at hb' ⊢
    split
    · rename_i hsup
      simp only [hsup, if_true] at hb'
      split
      · rename_i ha; simp [ha] at hb'
      · split
        · apply ConInv.reset
          apply ConBase.release
          exact hbase.congr rfl rfl rfl rfl rfl
        · exact ConInv.reset hbase
      · apply ConInv.reset
        apply ConBase.release
        exact hbase.congr rfl rfl rfl rfl rfl
    · exact ConInv.reset hbase
  · -- project
    rename_i hst
    have hbest' := hbest (by simp [hst, InIter])
    split
    · rename_i k hpre hk
      rw [conInv_iff]
      have hFk : F k = true := by
        unfold ConBase at hbase
        rw [hpre] at hbase
        rw [← hbase.1]
        unfold stagedCon at hk
        (repeat' split at hk) <;> simp_all
      unfold ConBase at hbase
      rw [hpre] at hbase
      have hoff : OffEq k s.sil.flags F := fun j _ => by rw [hbase.1]
      refine ⟨⟨hFk, offEq_setFlag hoff, hbase.2⟩, fun _ => rfl, fun _ ha => ?_⟩
      have hb := hbest' ha
      unfold BestOk at hb
      rw [hpre] at hb
      exact ⟨fun j _ => by rw [hb.1], hb.2⟩
    · rw [conInv_iff]
      exact ⟨hbase.congr rfl rfl rfl rfl rfl, fun _ => rfl,
        fun _ ha => (hbest' ha).congr rfl rfl rfl⟩
  · rename_i hst
    have hbest' := hbest (by simp [hst, InIter])
    rw [conInv_iff]
    exact ⟨hbase.congr rfl rfl rfl rfl rfl, fun _ => rfl, fun _ ha => (hbest' ha).congr rfl rfl rfl⟩
  · rename_i hst
    have hbest' := hbest (by simp [hst, InIter])
    rw [conInv_iff]
    exact ⟨hbase.congr rfl rfl rfl rfl rfl, fun _ => rfl, fun _ ha => (hbest' ha).congr rfl rfl rfl⟩
  · rename_i hst
    have hbest' := hbest (by simp [hst, InIter])
    rw [conInv_iff]
    exact ⟨hbase.congr rfl rfl rfl rfl rfl, fun _ => rfl, fun _ ha => (hbest' ha).congr rfl rfl rfl⟩
  · -- reassemble
    rename_i hst
    simp only [hst] at hb'
    have hbest' := hbest (by simp [hst, InIter])
    have hbaseS : ConBase F B (saveBest E i s) := hbase.saveBest
    have hbestS : (saveBest E i s).acceptable = true → BestOk F B (saveBest E i s) := by
      intro ha
      unfold Auto.saveBest at ha ⊢
      split
      · exact BestOk.ofSil (hbase.congr rfl rfl rfl rfl rfl) rfl
      · rename_i hn
        rw [if_neg hn] at ha
        exact hbest' ha
    unfold reassemble at hb' ⊢
    dsimp only at hb' ⊢
    have hgo : ConInv F B (Auto.stageMachine { Auto.saveBest E i s with step := .convergenceTest }) :=
      ConInv.stageMachine (hbaseS.congr rfl rfl rfl rfl rfl)
        (fun ha => (hbestS ha).congr rfl rfl rfl) rfl
    split
    · exact hgo
    · split
      · split
        · exact hgo
        · split
          · rename_i hacc
            have hb := hbestS hacc
            apply ConInv.stageMachine _ _ rfl
            · unfold ConBase at hbaseS ⊢
              unfold BestOk at hb
              dsimp only
              split <;> rename_i hstage <;> rw [hstage] at hbaseS hb
              · exact ⟨hb.1, hb.2⟩
              · exact ⟨hbaseS.1, hb.1, hb.2⟩
              · exact ⟨hbaseS.1, hb, hbaseS.2.2⟩
              · exact ⟨hbaseS.1, hb, hbaseS.2.2⟩
            · intro _
              exact hb.congr rfl rfl rfl
          · rename_i h1 h2 h3 h4
            simp [h1, h2, h3, h4] at hb'
      · rw [conInv_iff]
        exact ⟨hbaseS.congr rfl rfl rfl rfl rfl, fun _ => rfl,
          fun _ ha => (hbestS ha).congr rfl rfl rfl⟩
  · rename_i hst
    have hbest' := hbest (by simp [hst, InIter])
    dsimp only
    split
    · exact ConInv.stageMachine (hbase.congr rfl rfl rfl rfl rfl)
        (fun ha => (hbest' ha).congr rfl rfl rfl) rfl
    · rw [conInv_iff]
      exact ⟨hbase.congr rfl rfl rfl rfl rfl, fun _ => rfl,
        fun _ ha => (hbest' ha).congr rfl rfl rfl⟩
  · -- drop
    rename_i hst
    have hbest' := hbest (by simp [hst, InIter])
    unfold dropStep
    dsimp only
    split
    · split
      · apply ConInv.reset
        apply ConBase.release
        exact hbase.congr rfl rfl rfl rfl rfl
      · apply ConInv.reset
        exact hbase.congr rfl rfl rfl rfl rfl
    · rw [conInv_iff]
      refine ⟨hbase.congr rfl rfl rfl rfl rfl, fun _ => ?_,
        fun _ ha => (hbest' ha).congr rfl rfl rfl⟩
      dsimp only
      split <;> rfl
  · rename_i hst
    rw [conInv_iff]
    refine ⟨hbase.congr rfl rfl rfl rfl rfl, fun hc => ?_, fun hc => by simp [InIter] at hc⟩
    have := hafter hc
    rw [hst] at this; simp [After] at this
  · rename_i hst
    have hpre : s.stage = .pre := by
      by_contra hc
      have := hafter hc
      rw [hst] at this; simp [After] at this
    unfold verifyStep
    split
    · rw [conInv_iff]
      exact ⟨hbase.congr rfl rfl rfl rfl rfl, fun _ => rfl, fun hc => by simp [InIter] at hc⟩
    · split
      · apply ConInv.reset
        apply ConBase.release
        exact hbase.congr rfl rfl rfl rfl rfl
      · split
        · apply ConInv.reset
          exact hbase.congr rfl rfl rfl rfl rfl
        · rw [conInv_iff]
          exact ⟨hbase.congr rfl rfl rfl rfl rfl, fun hc => absurd hpre hc,
            fun hc => by simp [InIter] at hc⟩
  · rename_i hst
    have hpre : s.stage = .pre := by
      by_contra hc
      have := hafter hc
      rw [hst] at this; simp [After] at this
    rw [conInv_iff]
    exact ⟨hbase.congr rfl rfl rfl rfl rfl, fun hc => absurd hpre hc,
      fun hc => by simp [InIter] at hc⟩
  · rw [conInv_iff]
    exact ⟨hbase, hafter, hbest⟩

theorem ConInv.reach {F : Con → Bool} {B : Option ℕ} {E : Env α} {s0 s : St α}
    (h0 : ConInv F B s0) (h : Reach E s0 s) : ConInv F B s := by
  induction h with
  | refl => exact h0
  | next i _ hc ih => exact ih.call hc

theorem ConInv.atOutput {F : Con → Bool} {B : Option ℕ} {s : St α} (h : ConInv F B s)
    (hs : s.step = .outputResults ∨ s.step = .updateSystem) :
    s.sil.flags = F ∧ Good B s s.sil.fo2 := by
  rw [conInv_iff] at h
  obtain ⟨hb, ha, _⟩ := h
  have hpre : s.stage = .pre := by
    by_contra hc
    have := ha hc
    rcases hs with h | h <;> rw [h] at this <;> simp [After] at this
  unfold ConBase at hb
  rw [hpre] at hb
  exact hb

/-- C09. Although the engine switches the energy constraint and the oxygen buffer on and off while it iterates, an
equilibration started by the user with switches `F` and buffer `B` reaches the output of results with
exactly these switches, and with buffer `B` unless the code released it (no liquid and no
buffering reaction among the solids), in which case there is none. -/
theorem C09_switches_restored (E : Env α) (F : Con → Bool) (B : Option ℕ) (s0 s : St α)
    (h0 : Start s0 F B) (h : Reach E s0 s)
    (hs : s.step = .outputResults ∨ s.step = .updateSystem) :
    s.sil.flags = F ∧ (s.sil.fo2 = B ∨ (s.released = true ∧ s.sil.fo2 = none)) := by
  refine (ConInv.reach (s0 := s0) ?_ h).atOutput hs
  rw [conInv_iff]
  refine ⟨?_, fun hc => absurd h0.stage hc, fun hc => ?_⟩
  · unfold ConBase; rw [h0.stage]; exact ⟨h0.flags, Or.inl h0.fo2⟩
  · rw [h0.step] at hc; simp [InIter] at hc

/-- C09, the defect. If the previous equilibration was abandoned in the middle of the staging
(`curStage` survives, see `C09_abort_keeps_stage`), then whatever switches the user selects for the
next one, it ends with the abandoned constraint `k` switched ON; and if it was abandoned in stage
two or three, with the stale buffer of the abandoned run in place of the selected one. -/
theorem C09_stage_leak (E : Env α) (k : Con) (s0 s : St α) (h0 : s0.step = .changeComposition)
    (h : Reach E s0 s) (hs : s.step = .outputResults ∨ s.step = .updateSystem) :
    (s0.stage = .one k → s.sil.flags = Function.update s0.sil.flags k true ∧
      Good s0.sil.fo2 s s.sil.fo2) ∧
    (s0.stage = .two k ∨ s0.stage = .three k →
      s.sil.flags = Function.update s0.sil.flags k true ∧ Good s0.fo2Old s s.sil.fo2) := by
  have hoff : OffEq k s0.sil.flags (Function.update s0.sil.flags k true) := by
    intro j hj; simp [hj]
  constructor
  · intro hst
    refine (ConInv.reach (s0 := s0) ?_ h).atOutput hs
    rw [conInv_iff]
    refine ⟨?_, fun _ => by rw [h0]; rfl, fun hc => ?_⟩
    · unfold ConBase; rw [hst]; exact ⟨by simp, hoff, Or.inl rfl⟩
    · rw [h0] at hc; simp [InIter] at hc
  · intro hst
    refine (ConInv.reach (s0 := s0) ?_ h).atOutput hs
    rw [conInv_iff]
    refine ⟨?_, fun _ => by rw [h0]; rfl, fun hc => ?_⟩
    · unfold ConBase
      rcases hst with hst | hst <;> rw [hst] <;> exact ⟨by simp, hoff, Or.inl rfl⟩
    · rw [h0] at hc; simp [InIter] at hc

/-- While staged, the switch of the staged constraint is off in stages one and three; in stage two it is on
and the buffer is off. -/
def StageFlag (s : St α) : Prop :=
  match s.stage with
  | .pre => True
  | .one k => s.sil.flags k = false
  | .two k => s.sil.flags k = true ∧ s.sil.fo2 = none
  | .three k => s.sil.flags k = false

theorem StageFlag.congr {s t : St α} (h : StageFlag s) (h1 : t.stage = s.stage)
    (h2 : t.sil.flags = s.sil.flags) (h3 : t.sil.fo2 = s.sil.fo2) : StageFlag t := by
  unfold StageFlag at *
  rw [h1, h2, h3]; exact h

theorem StageFlag.release {E : Env α} {i : In α} {s : St α} (h : StageFlag s) :
    StageFlag (release E i s) := by
  unfold Auto.release
  split
  · unfold StageFlag at *
    dsimp only
    split <;> simp_all
  · exact h

theorem StageFlag.reset {s : St α} (h : StageFlag s) :
    StageFlag { resetQuad s with step := Step.projectConstraints } := h.congr rfl rfl rfl

theorem stageFlag_stageMachine (s : St α) : StageFlag (stageMachine s) := by
  unfold stageMachine
  split <;> rename_i hst
  · unfold StageFlag; rw [hst]; trivial
  · simp [StageFlag, setFlag]
  · simp [StageFlag, setFlag]
  · simp [StageFlag]

theorem StageFlag.call {E : Env α} {i : In α} {s : St α} (h : StageFlag s) :
    StageFlag (Auto.call E i s).1 := by
  unfold Auto.call
  split
  · exact h.congr rfl rfl rfl
  · have : StageFlag { s with sil := { s.sil with asm := i.asm } } := h.congr rfl rfl rfl
    exact (this.release (E := E) (i := i)).congr rfl rfl rfl
  · exact h.congr rfl rfl rfl
  · unfold addStep
    split
    · split
      · simp [StageFlag]
      · split
        · exact StageFlag.reset (StageFlag.release (h.congr rfl rfl rfl))
        · exact StageFlag.reset h
      · exact StageFlag.reset (StageFlag.release (h.congr rfl rfl rfl))
    · exact StageFlag.reset h
  · split
    · simp [StageFlag, setFlag]
    · exact h.congr rfl rfl rfl
  · exact h.congr rfl rfl rfl
  · exact h.congr rfl rfl rfl
  · exact h.congr rfl rfl rfl
  · have hs : StageFlag (Auto.saveBest E i s) := by
      unfold Auto.saveBest; split
      · exact h.congr rfl rfl rfl
      · exact h
    unfold reassemble
    dsimp only
    (repeat' split)
    all_goals first
      | exact stageFlag_stageMachine _
      | exact hs.congr rfl rfl rfl
  · dsimp only
    split
    · exact stageFlag_stageMachine _
    · exact h.congr rfl rfl rfl
  · unfold dropStep
    dsimp only
    split
    · split
      · refine (StageFlag.release (E := E) (i := i) (h.congr ?_ ?_ ?_)).congr rfl rfl rfl <;> rfl
      · exact h.congr rfl rfl rfl
    · exact h.congr rfl rfl rfl
  · exact h.congr rfl rfl rfl
  · unfold verifyStep
    split
    · exact h.congr rfl rfl rfl
    · split
      · refine (StageFlag.release (E := E) (i := i) (h.congr ?_ ?_ ?_)).congr rfl rfl rfl <;> rfl
      · split
        · exact h.congr rfl rfl rfl
        · exact h.congr rfl rfl rfl
  · exact h.congr rfl rfl rfl
  · exact h

theorem StageFlag.reach {E : Env α} {s0 s : St α} (h0 : StageFlag s0) (h : Reach E s0 s) :
    StageFlag s := by
  induction h with
  | refl => exact h0
  | @next t t' i _ hc ih =>
    have := ih.call (E := E) (i := i)
    rwa [hc] at this

/-- C09, where the defect comes from. When the quadratic iteration fails (the call returns TRUE from the
REASSEMBLE step), the automaton goes back to its first step but keeps its stage, and leaves the user's settings
half undone: in stages one and three the requested constraint is off, in stage two the requested
buffer is off. -/
theorem C09_abort_keeps_stage (E : Env α) (F : Con → Bool) (B : Option ℕ) (i : In α)
    (s0 s s' : St α) (h0 : Start s0 F B) (h : Reach E s0 s) (hst : s.step = .reassembleSolution)
    (ha : call E i s = (s', true)) :
    s'.step = .changeComposition ∧ s'.stage = s.stage ∧
    (∀ k, s'.stage = .one k ∨ s'.stage = .three k → F k = true ∧ s'.sil.flags k = false) ∧
    (∀ k, s'.stage = .two k → F k = true ∧ s'.sil.fo2 = none) := by
  have hcon : ConInv F B s := by
    refine ConInv.reach (s0 := s0) ?_ h
    rw [conInv_iff]
    refine ⟨?_, fun hc => absurd h0.stage hc, fun hc => ?_⟩
    · unfold ConBase; rw [h0.stage]; exact ⟨h0.flags, Or.inl h0.fo2⟩
    · rw [h0.step] at hc; simp [InIter] at hc
  have hsf : StageFlag s := StageFlag.reach (s0 := s0) (by unfold StageFlag; rw [h0.stage]; trivial) h
  have hsf' : StageFlag s' := by
    have := hsf.call (E := E) (i := i); rwa [ha] at this
  have hstage : s'.step = .changeComposition ∧ s'.stage = s.stage := by
    have hsv : (saveBest E i s).stage = s.stage := by unfold saveBest; split <;> rfl
    unfold call at ha
    simp only [hst] at ha
    unfold reassemble at ha
    dsimp only at ha
    (repeat' split at ha) <;> simp only [Prod.mk.injEq, Bool.false_eq_true, and_false, and_true] at ha
    rw [← ha]
    exact ⟨rfl, hsv⟩
  refine ⟨hstage.1, hstage.2, ?_, ?_⟩
  · intro k hk
    constructor
    · rw [conInv_iff] at hcon
      have := hcon.1
      unfold ConBase at this
      rw [← hstage.2] at this
      rcases hk with hk | hk <;> rw [hk] at this <;> exact this.1
    · unfold StageFlag at hsf'
      rcases hk with hk | hk <;> rw [hk] at hsf' <;> exact hsf'
  · intro k hk
    constructor
    · rw [conInv_iff] at hcon
      have := hcon.1
      unfold ConBase at this
      rw [← hstage.2, hk] at this
      exact this.1
    · unfold StageFlag at hsf'
      rw [hk] at hsf'; exact hsf'.2

/-! ### C46: an unconverged constrained stage silently falls back to an unconstrained solution -/

/-- A step in which the iteration makes no acceptable progress and nothing disappears. -/
structure Stuck (E : Env α) (i : In α) : Prop where
  best : E.tolBest * i.sNorm ≤ i.rNorm
  conv : E.tolConv * i.sNorm ≤ i.rNorm
  acc : E.tolAcc * i.sNorm ≤ i.rNorm
  stagnant : i.stagnant = false
  anyDrop : i.anyDrop = false
  dropLiquid : i.dropLiquid = false

/-- States reached by calls (returning FALSE) all of which are stuck. -/
inductive StuckReach (E : Env α) (s0 : St α) : St α → Prop
  | refl : StuckReach E s0 s0
  | next {s s' : St α} (i : In α) : StuckReach E s0 s → Stuck E i → s.stage = s0.stage →
      call E i s = (s', false) → StuckReach E s0 s'

/-- C46, first half. Stage one hands over to stage two without forgetting its saved best state, in which the
energy constraint is off. -/
theorem C46_best_survives (E : Env α) (i : In α) (k : Con) (s s' : St α)
    (hst : s.step = .reassembleSolution) (h1 : s.stage = .one k) (hf : s.sil.flags k = false)
    (hn : i.rNorm < E.tolBest * i.sNorm ∧ i.rNorm < s.bestNorm)
    (hc : i.rNorm < E.tolConv * i.sNorm) (h : call E i s = (s', false)) :
    s'.stage = .two k ∧ s'.sil.flags k = true ∧ s'.acceptable = true ∧ s'.best = s.sil ∧
    s'.best.flags k = false ∧ s'.step = .projectConstraints := by
  unfold call at h
  simp only [hst] at h
  unfold reassemble saveBest at h
  simp only [hn, hc, if_true, and_self] at h
  unfold stageMachine at h
  simp only [h1, Prod.mk.injEq, and_true] at h
  subst h
  simp [setFlag, hf]

/-- C46, second half. From the start of stage two with such a saved state, however large the residuals are at
every iteration, the engine never reports a failure: either it is still iterating in stage two or it
has moved on to stage three with the assemblage of the saved state, i.e. one computed with the energy
constraint switched off. -/
theorem C46_falls_back (E : Env α) (k : Con) (s0 s : St α) (h2 : s0.stage = .two k)
    (hp : s0.step = .projectConstraints) (ha : s0.acceptable = true) (h : StuckReach E s0 s) :
    (s.stage = .two k ∧ s.best = s0.best ∧ s.acceptable = true ∧
      (∀ i, Stuck E i → (call E i s).2 = false)) ∨
    (s.stage = .three k ∧ s.sil.asm = s0.best.asm ∧ s.step = .projectConstraints) := by
  have key : (s.stage = .two k ∧ s.best = s0.best ∧ s.acceptable = true ∧ InIter s.step = true) ∨
      (s.stage = .three k ∧ s.sil.asm = s0.best.asm ∧ s.step = .projectConstraints) := by
    induction h with
    | refl => left; exact ⟨h2, rfl, ha, by rw [hp]; rfl⟩
    | @next t t' i _ hi hstage hc ih =>
      rw [h2] at hstage
      rcases ih with ⟨_, hb, hacc, hin⟩ | ⟨h3, _, _⟩
      · have hsave : saveBest E i t = t := by
          unfold saveBest
          rw [if_neg]; intro hx; exact absurd hx.1 (not_lt.mpr hi.best)
        unfold call at hc
        cases hs : t.step <;> rw [hs] at hin <;> simp [InIter] at hin <;> simp only [hs] at hc
        · -- project
          split at hc
          · rename_i hpre _; rw [hpre] at hstage; simp at hstage
          · simp only [Prod.mk.injEq, and_true] at hc
            subst hc; left; exact ⟨hstage, hb, hacc, rfl⟩
        · simp only [Prod.mk.injEq, and_true] at hc
          subst hc; left; exact ⟨hstage, hb, hacc, rfl⟩
        · simp only [Prod.mk.injEq, and_true] at hc
          subst hc; left; exact ⟨hstage, hb, hacc, rfl⟩
        · simp only [Prod.mk.injEq, and_true] at hc
          subst hc; left; exact ⟨hstage, hb, hacc, rfl⟩
        · unfold reassemble at hc
          rw [hsave] at hc
          simp only [not_lt.mpr hi.conv, not_lt.mpr hi.acc, if_false, hacc, if_true] at hc
          split at hc
          · right
            simp only [stageMachine, hstage, Prod.mk.injEq, and_true] at hc
            subst hc
            exact ⟨rfl, by simp [setFlag, hb], rfl⟩
          · left
            simp only [Prod.mk.injEq, and_true] at hc
            subst hc; exact ⟨hstage, hb, rfl, rfl⟩
        · simp only [hi.stagnant, Bool.false_eq_true, and_false, if_false, Prod.mk.injEq,
            and_true] at hc
          subst hc; left; exact ⟨hstage, hb, hacc, rfl⟩
        · unfold dropStep at hc
          simp only [hi.anyDrop, hi.dropLiquid, Bool.false_eq_true, or_self, if_false,
            Prod.mk.injEq, and_true] at hc
          subst hc; left
          refine ⟨hstage, hb, hacc, ?_⟩
          dsimp only
          split <;> rfl
      · rw [h3] at hstage; simp at hstage
  rcases key with ⟨h1, hb, hacc, hin⟩ | hr
  · left
    refine ⟨h1, hb, hacc, ?_⟩
    intro i hi
    have hsave : saveBest E i s = s := by
      unfold saveBest
      rw [if_neg]; intro hx; exact absurd hx.1 (not_lt.mpr hi.best)
    unfold call
    cases hs : s.step <;> rw [hs] at hin <;> simp [InIter] at hin <;> simp only [hs]
    · split <;> rfl
    · simp only [reassemble, hsave, not_lt.mpr hi.conv, not_lt.mpr hi.acc, if_false, hacc, if_true]
      split <;> rfl
    · split <;> rfl
  · right; exact hr

/-! ### Concrete runs -/

/-- Run a list of inputs, stopping when a call returns TRUE. -/
def run (E : Env α) : List (In α) → St α → St α × Bool
  | [], s => (s, false)
  | i :: rest, s =>
    let r := call E i s
    if r.2 then r else run E rest r.1

theorem reach_run (E : Env α) (is : List (In α)) (s0 s : St α) (h : Reach E s0 s)
    (hr : (run E is s).2 = false) : Reach E s0 (run E is s).1 := by
  induction is generalizing s with
  | nil => exact h
  | cons i rest ih =>
    unfold run at hr ⊢
    dsimp only at hr ⊢
    split
    · rename_i hx; rw [if_pos hx] at hr; rw [hx] at hr; simp at hr
    · rename_i hx
      rw [if_neg hx] at hr
      refine ih _ (Reach.next i h ?_) hr
      have : (call E i s).2 = false := by simpa using hx
      rw [← this]

namespace Demo

/-- An environment with unit tolerances in which the assemblage 7 is stable. -/
def E : Env ℕ :=
  { ref := fun _ => true, multipleLiqs := true, hasLiquid := fun _ => true,
    evalSat := fun s => s.asm < 3, solidsSplit := fun s => s.asm == 4,
    liquidsSplit := fun s => s.asm == 5, tolBest := 1, tolConv := 1 / 2, tolAcc := 1 }

/-- Everything idle, norms as given. -/
def inp (a : ℕ) (r : ℚ) : In ℕ :=
  { asm := a, release := false, add := .solid 3, drops := fun _ => 0, anyDrop := false,
    dropLiquid := false, split := fun _ => 0, rNorm := r, sNorm := 1, stagnant := false }

/-- Isenthalpic run on buffer 2. -/
def s0 : St ℕ :=
  { step := .changeComposition, stage := .pre,
    sil := { asm := 1, flags := fun k => k == .H, fo2 := some 2, copies := fun _ => 0, cyl := fun _ => 0 },
    fo2Old := none, iterQuad := 0, acceptable := false, bestNorm := 1,
    best := { asm := 0, flags := fun _ => false, fo2 := none, copies := fun _ => 0, cyl := fun _ => 0 },
    supersat := false, released := false, adds := fun _ => 0 }

theorem start : Start s0 (fun k => k == .H) (some 2) := ⟨rfl, rfl, rfl, rfl, rfl, fun _ => rfl⟩

/-- 4 set-up calls, then three converged stages of 5 calls each, then CONVERGENCE_TEST,
VERIFY_SATURATION and OUTPUT_RESULTS. -/
def good : List (In ℕ) := List.replicate 4 (inp 1 0) ++ List.replicate 18 (inp 7 (1 / 4))

/-- The same, but the iteration never gets anywhere in stage one. -/
def bad : List (In ℕ) := List.replicate 4 (inp 1 0) ++ List.replicate 900 (inp 7 5)

/-- An isothermal, unbuffered request. -/
def reset (s : St ℕ) : St ℕ := { s with sil := { s.sil with flags := fun _ => false, fo2 := none } }

end Demo

/-- Non-vacuity of C08, C09, C45: a run that goes through all stages and reaches the output, having
added phase 3 once. -/
example : (run Demo.E Demo.good Demo.s0).2 = false ∧
    (run Demo.E Demo.good Demo.s0).1.step = .updateSystem ∧
    (run Demo.E Demo.good Demo.s0).1.sil.asm = 7 ∧
    (run Demo.E Demo.good Demo.s0).1.sil.flags .H = true ∧
    (run Demo.E Demo.good Demo.s0).1.sil.fo2 = some 2 ∧
    (run Demo.E Demo.good Demo.s0).1.adds 3 = 1 := by decide +kernel

/-- Non-vacuity of the abort theorem: a stage-one failure, after which an isothermal run ends
isenthalpic. -/
example : (run Demo.E Demo.bad Demo.s0).2 = true ∧
    (run Demo.E Demo.bad Demo.s0).1.stage = .one .H ∧
    (run Demo.E Demo.bad Demo.s0).1.sil.flags .H = false ∧
    (let s := Demo.reset (run Demo.E Demo.bad Demo.s0).1
     let r := run Demo.E Demo.good s
     s.sil.flags .H = false ∧ r.1.step = .updateSystem ∧ r.1.sil.flags .H = true) := by
  decide +kernel

/-- Non-vacuity of C46: stage one converges with assemblage 7; stage two (isenthalpic) produces only garbage
(assemblage 9, residual 5) for 101 iterations and is left with the isothermal assemblage 7. -/
example : (let r := run Demo.E (List.replicate 4 (Demo.inp 1 0) ++ List.replicate 5 (Demo.inp 7 (1 / 4))
        ++ List.replicate 705 (Demo.inp 9 5)) Demo.s0
     r.2 = false ∧ r.1.stage = .three .H ∧ r.1.sil.asm = 7 ∧ r.1.step = .projectConstraints) ∧
    (let r := run Demo.E (List.replicate 4 (Demo.inp 1 0) ++ List.replicate 5 (Demo.inp 7 (1 / 4)))
        Demo.s0
     r.1.stage = .two .H ∧ r.1.acceptable = true ∧ r.1.best.flags .H = false) := by
  decide +kernel

end Magma.Engine.Auto
