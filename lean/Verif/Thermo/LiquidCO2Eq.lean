import Verif.Thermo.LiquidCO2Order
import Verif.Thermo.LiquidCO2Act

/-!
C66: the equilibrium speciation of the liquid is a differentiable function of the conditions, so that the statements
about the liquid at equilibrium (`Speciated`) hold for it; instances of all hypotheses.
-/

namespace Verif.Thermo.LiquidCO2

open Finset Filter Topology
open Verif.Thermo.Ordering
open Verif.Thermo.StdState (Std)
open Magma.Thermo.Mixing (R R_pos Mix)
open Magma.Thermo.Extensive

noncomputable section

variable (P : Par)

/-! ### Specification -/

/-- The equilibrium speciation: an amount of carbonate at which all four species of the reaction are present and its
affinity vanishes. -/
def eqX (θ : Ext 18 → ℝ) : Fin 1 → ℝ := fun _ => Classical.epsilon fun s =>
  Open4 (fun j => θ (.inl j)) s ∧ affinity P (θ iT) (θ iP) (fun j => θ (.inl j)) s = 0

/-- Conditions under which carbonate forms in a liquid with the components of `A`. -/
structure CanForm (A : Finset (Fin 18)) (U : Set (Ext 18 → ℝ)) : Prop where
  isOpen : IsOpen U
  ca : 9 ∈ A
  co2 : 13 ∈ A
  pos_t : ∀ θ ∈ U, 0 < θ iT
  smooth : ∀ θ ∈ U, ∀ i, Smooth (P.std i) (θ iT) (θ iP)
  comp : ∀ θ ∈ U, ∀ j ∈ A, 0 < θ (.inl j)
  room : ∀ θ ∈ U, lower (mask A fun j => θ (.inl j)) < upper (mask A fun j => θ (.inl j))
  convex : ∀ θ ∈ U, 0 < 2 * (P.kG (θ iT) (θ iP)).ss + 16 * (R * θ iT)

/-! ### Continuity of the equilibrium -/

lemma pt_mk (X : (Ext 18 → ℝ) → Fin 1 → ℝ) (A : Finset (Fin 18)) (θ : Ext 18 → ℝ) :
    pt X (cutE (present A) θ) = mk (mask A fun j => θ (.inl j)) (θ iT) (θ iP) (X (cutE (present A) θ) 0) := by
  refine ext_var (fun j => ?_) ?_ ?_ ?_
  · by_cases h : j ∈ A <;> simp [pt, mk, cutE, present, mask, h]
  · simp [pt, mk, cutE, present, iT]
  · simp [pt, mk, cutE, present, iP]
  · rfl

variable {P} {A : Finset (Fin 18)} {U : Set (Ext 18 → ℝ)}

lemma eqX_spec (h : CanForm P A U) {θ : Ext 18 → ℝ} (hθ : θ ∈ U) :
    Open4 (mask A fun j => θ (.inl j)) (eqX P (cutE (present A) θ) 0) ∧
    affinity P (θ iT) (θ iP) (mask A fun j => θ (.inl j)) (eqX P (cutE (present A) θ) 0) = 0 := by
  have e1 : (fun j => cutE (present A) θ (.inl j)) = mask A fun j => θ (.inl j) := by
    funext j; by_cases hj : j ∈ A <;> simp [cutE, present, mask, hj]
  have e2 : cutE (present A) θ iT = θ iT := by simp [cutE, present, iT]
  have e3 : cutE (present A) θ iP = θ iP := by simp [cutE, present, iP]
  have := Classical.epsilon_spec (C66_equilibrium_exists P (h.pos_t θ hθ) (θ iP) (h.room θ hθ))
  unfold eqX
  rw [e1, e2, e3]
  exact this

lemma mask_nonneg (h : CanForm P A U) {θ : Ext 18 → ℝ} (hθ : θ ∈ U) (j : Fin 18) :
    0 ≤ mask A (fun j => θ (.inl j)) j := by
  by_cases hj : j ∈ A
  · simp only [mask, hj, if_true]; exact (h.comp θ hθ j hj).le
  · simp [mask, hj]

/-- Guards at the conditions of the set, at any state with all four species present. -/
lemma code_form (h : CanForm P A U) {θ : Ext 18 → ℝ} (hθ : θ ∈ U) {s : ℝ}
    (ho : Open4 (mask A fun j => θ (.inl j)) s) :
    (∀ i, (0 < spAt A (fun _ _ => s) θ i ↔ has A True i) ∧ 0 ≤ spAt A (fun _ _ => s) θ i) ∧ 0 < spAt A (fun _ _ => s) θ 0 := by
  have e : spAt A (fun _ _ => s) θ = sp (mask A fun j => θ (.inl j)) s := by
    unfold spAt spOf
    rw [pt_mk]; rfl
  rw [e]
  refine ⟨fun i => ?_, ho.1⟩
  rcases fin20 i with e | e | ⟨j, e⟩
  · subst e; exact ⟨⟨fun _ => .inl rfl, fun _ => ho.1⟩, ho.1.le⟩
  · subst e; exact ⟨⟨fun _ => .inr (.inr ⟨rfl, trivial⟩), fun _ => ho.2.1⟩, ho.2.1.le⟩
  · by_cases hj : j ∈ A
    · have pos : 0 < sp (mask A fun j => θ (.inl j)) s i := by
        by_cases h9 : j = 9
        · subst h9; subst e; exact ho.2.2.1
        by_cases h13 : j = 13
        · subst h13; subst e; exact ho.2.2.2
        rw [e, sp_succ, if_neg (by tauto), sub_zero]
        simp only [mask, hj, if_true]; exact h.comp θ hθ j hj
      exact ⟨⟨fun _ => .inr (.inl ⟨j, hj, e⟩), fun _ => pos⟩, pos.le⟩
    · have h9 : ¬(j = 9 ∨ j = 13) := by
        rintro (a | a)
        · exact hj (a ▸ h.ca)
        · exact hj (a ▸ h.co2)
      have e0 : sp (mask A fun j => θ (.inl j)) s i = 0 := by
        rw [e, sp_succ, if_neg h9, sub_zero]; simp [mask, hj]
      rw [e0]
      refine ⟨⟨fun a => absurd a (lt_irrefl 0), ?_⟩, le_refl 0⟩
      rintro (a | ⟨j', hj', a⟩ | ⟨a, -⟩)
      · exact absurd (e.symm.trans a) (succ_ne_zero' j)
      · have : j = j' := Fin.succ_injective _ (Fin.castSucc_injective _ (e.symm.trans a))
        exact absurd (this ▸ hj') hj
      · exact absurd (e.symm.trans a) (succ_ne_last j)

lemma Gr.continuousAt {α : Type} [Fintype α] {f : (α → ℝ) → ℝ} {x d : α → ℝ} (h : Gr f x d) : ContinuousAt f x :=
  HasFDerivAt.continuousAt h

lemma cont_cut (A : Finset (Fin 18)) (s : ℝ) :
    Continuous fun θ : Ext 18 → ℝ => pt (fun _ _ => s : (Ext 18 → ℝ) → Fin 1 → ℝ) (cutE (present A) θ) := by
  refine continuous_pi fun i => ?_
  rcases i with i | i
  · simp only [pt, Sum.elim_inl]
    unfold cutE
    split_ifs
    · exact continuous_apply i
    · exact continuous_const
  · exact continuous_const

lemma affinity_cont (h : CanForm P A U) {θ : Ext 18 → ℝ} (hθ : θ ∈ U) {s : ℝ}
    (ho : Open4 (mask A fun j => θ (.inl j)) s) :
    ContinuousAt (fun θ => affinity P (θ iT) (θ iP) (mask A fun j => θ (.inl j)) s) θ := by
  have g := code_form h hθ ho
  have dm : Dom P (has A True) (has A True w) (pt (fun _ _ => s) (cutE (present A) θ)) :=
    dom_of (h.pos_t θ hθ) (h.smooth θ hθ) g.2 g.1
  have h1 : ContinuousAt (fun y => (tabs P (has A True) (has A True w) y).dgds 0) (pt (fun _ _ => s) (cutE (present A) θ)) :=
    Gr.continuousAt ((tabs_ok P (has A True) (has A True w)).d2 _ dm (.inr 0))
  have h2 : ContinuousAt (fun θ : Ext 18 → ℝ => (tabs P (has A True) (has A True w)
      (pt (fun _ _ => s) (cutE (present A) θ))).dgds 0) θ :=
    ContinuousAt.comp (f := fun θ : Ext 18 → ℝ => pt (fun _ _ => s) (cutE (present A) θ)) h1 (cont_cut A s).continuousAt
  refine h2.congr ?_
  have hO : ∀ᶠ θ' in 𝓝 θ, Open4 (mask A fun j => θ' (.inl j)) s := by
    have cm : ∀ j, Continuous fun θ : Ext 18 → ℝ => mask A (fun j => θ (.inl j)) j := by
      intro j
      unfold mask
      split_ifs
      · exact continuous_apply _
      · exact continuous_const
    obtain ⟨a, b, c, d⟩ := ho
    rw [sp0] at a; rw [sp10] at c; rw [sp14] at d
    have ca : Continuous fun θ : Ext 18 → ℝ => 1 - ∑ j, mask A (fun j => θ (.inl j)) j + s :=
      (continuous_const.sub (continuous_finset_sum _ fun j _ => cm j)).add continuous_const
    filter_upwards [ca.continuousAt.eventually_const_lt a,
      ((cm 9).sub continuous_const).continuousAt.eventually_const_lt c,
      ((cm 13).sub continuous_const).continuousAt.eventually_const_lt d] with θ' a' c' d'
    refine ⟨a', b, ?_, ?_⟩
    · rw [sp10]; exact c'
    · rw [sp14]; exact d'
  filter_upwards [hO, h.isOpen.mem_nhds hθ] with θ' ho' hθ'
  have g' := code_form h hθ' ho'
  rw [← code_eq g'.2 g'.1, pt_mk]
  rfl

lemma m_cont (θ : Ext 18 → ℝ) : ContinuousAt (fun θ : Ext 18 → ℝ => 2 * (P.kG (θ iT) (θ iP)).ss + 16 * (R * θ iT)) θ := by
  have : Continuous fun θ : Ext 18 → ℝ => 2 * (P.kG (θ iT) (θ iP)).ss + 16 * (R * θ iT) := by
    unfold Par.kG load pairs Par.W
    simp only
    fun_prop
  exact this.continuousAt

lemma eqX_cont (h : CanForm P A U) {θ : Ext 18 → ℝ} (hθ : θ ∈ U) :
    ContinuousAt (fun θ => eqX P (cutE (present A) θ)) θ := by
  rw [continuousAt_pi]
  intro k
  fin_cases k
  change ContinuousAt (fun θ => eqX P (cutE (present A) θ) 0) θ
  set s := eqX P (cutE (present A) θ) 0 with hs
  obtain ⟨ho, he⟩ := eqX_spec h hθ
  rw [← hs] at ho he
  set m : (Ext 18 → ℝ) → ℝ := fun θ => 2 * (P.kG (θ iT) (θ iP)).ss + 16 * (R * θ iT) with hm
  have hf := affinity_cont h hθ ho
  have hb : ∀ᶠ θ' in 𝓝 θ, |eqX P (cutE (present A) θ') 0 - s|
      ≤ |affinity P (θ' iT) (θ' iP) (mask A fun j => θ' (.inl j)) s| / m θ' := by
    have hO : ∀ᶠ θ' in 𝓝 θ, Open4 (mask A fun j => θ' (.inl j)) s := by
      have cm : ∀ j, Continuous fun θ : Ext 18 → ℝ => mask A (fun j => θ (.inl j)) j := by
        intro j
        unfold mask
        split_ifs
        · exact continuous_apply _
        · exact continuous_const
      obtain ⟨a, b, c, d⟩ := ho
      rw [sp0] at a; rw [sp10] at c; rw [sp14] at d
      have ca : Continuous fun θ : Ext 18 → ℝ => 1 - ∑ j, mask A (fun j => θ (.inl j)) j + s :=
        (continuous_const.sub (continuous_finset_sum _ fun j _ => cm j)).add continuous_const
      filter_upwards [ca.continuousAt.eventually_const_lt a,
        ((cm 9).sub continuous_const).continuousAt.eventually_const_lt c,
        ((cm 13).sub continuous_const).continuousAt.eventually_const_lt d] with θ' a' c' d'
      refine ⟨a', b, ?_, ?_⟩
      · rw [sp10]; exact c'
      · rw [sp14]; exact d'
    filter_upwards [hO, h.isOpen.mem_nhds hθ] with θ' ho' hθ'
    obtain ⟨ho2, he2⟩ := eqX_spec h hθ'
    have hmp : 0 < m θ' := h.convex θ' hθ'
    rw [le_div_iff₀ hmp]
    rcases le_total s (eqX P (cutE (present A) θ') 0) with hl | hl
    · have := affinity_expand P (h.pos_t θ' hθ') (θ' iP) (fun j _ _ => mask_nonneg h hθ' j) ho' ho2 hl
      rw [he2] at this
      rw [abs_of_nonneg (sub_nonneg.2 hl)]
      refine le_trans ?_ (neg_le_abs _)
      simp only [hm]; linarith
    · have := affinity_expand P (h.pos_t θ' hθ') (θ' iP) (fun j _ _ => mask_nonneg h hθ' j) ho2 ho' hl
      rw [he2] at this
      rw [abs_of_nonpos (sub_nonpos.2 hl)]
      refine le_trans ?_ (le_abs_self _)
      simp only [hm]; linarith
  have hlim : Tendsto (fun θ' : Ext 18 → ℝ => |affinity P (θ' iT) (θ' iP) (mask A fun j => θ' (.inl j)) s| / m θ') (𝓝 θ) (𝓝 0) := by
    have h1 : ContinuousAt (fun θ' : Ext 18 → ℝ => |affinity P (θ' iT) (θ' iP) (mask A fun j => θ' (.inl j)) s| / m θ') θ :=
      hf.abs.div (m_cont θ) (h.convex θ hθ).ne'
    have h2 := h1.tendsto
    rw [he] at h2
    simpa using h2
  have h0 : Tendsto (fun θ' => eqX P (cutE (present A) θ') 0 - s) (𝓝 θ) (𝓝 0) :=
    squeeze_zero_norm' (by simpa only [Real.norm_eq_abs] using hb) hlim
  have h3 := h0.add_const s
  simp only [sub_add_cancel, zero_add] at h3
  exact h3

/-- **C66.** Wherever carbonate can form and the liquid does not unmix along the reaction, the equilibrium speciation
has everything the statements about the liquid with carbonate ask for: it varies continuously and regularly with
temperature, pressure and composition. -/
theorem C66_speciation (h : CanForm P A U) : Speciated P A (eqX P) U where
  isOpen := h.isOpen
  ca := h.ca
  co2 := h.co2
  pos_t := h.pos_t
  smooth := h.smooth
  sio2 θ hθ := by
    have := (eqX_spec h hθ).1.1
    unfold spAt spOf; rw [pt_mk]; exact this
  comp θ hθ j hj := by
    obtain ⟨ho, -⟩ := eqX_spec h hθ
    have e : spAt A (eqX P) θ = sp (mask A fun j => θ (.inl j)) (eqX P (cutE (present A) θ) 0) := by
      unfold spAt spOf; rw [pt_mk]; rfl
    rw [e]
    by_cases h9 : j = 9
    · subst h9; exact ho.2.2.1
    by_cases h13 : j = 13
    · subst h13; exact ho.2.2.2
    rw [sp_succ, if_neg (by tauto), sub_zero]
    simp only [mask, hj, if_true]; exact h.comp θ hθ j hj
  caco3 θ hθ := by
    have := (eqX_spec h hθ).1.2.1
    unfold spAt spOf; rw [pt_mk]; exact this
  stat θ hθ := by rw [pt_mk]; exact (eqX_spec h hθ).2
  regular θ hθ := by
    rw [pt_mk]
    have := stiffness_ge P (h.pos_t θ hθ) (θ iP) (fun j _ _ => mask_nonneg h hθ j) (eqX_spec h hθ).1
    exact ((h.convex θ hθ).trans_le this).ne'
  cont θ hθ := eqX_cont h hθ

/-- **C66.** The reported properties of mixing of a liquid with carbonate at equilibrium are mutually consistent,
without any assumption on the speciation. -/
theorem C66_consistent (h : CanForm P A U) : ConsistentOn (on A (liqMix P (eqX P))) (On U) :=
  C66_speciated (C66_speciation h)

/-! ### Instances -/

/-- A liquid with ideal mixing and no standard state energies. -/
def ideal : Par where
  std _ _ _ := ⟨0, 0, 0, 0, 0, 0, 0, 0, 0, 0, 0⟩
  eh _ := 0
  es _ := 0
  ev _ := 0
  wh _ _ := 0
  ws _ _ := 0
  wv _ _ := 0
  T := taylor

lemma ideal_smooth (i : Fin 20) (t p : ℝ) : Smooth (ideal.std i) t p := by
  have h : ∀ a b, a = 0 → b = 0 → D2 (fun _ _ => (0 : ℝ)) t p a b := by
    rintro a b rfl rfl; exact D2.const 0 t p
  refine ⟨h _ _ ?_ ?_, h _ _ ?_ ?_, h _ _ ?_ ?_, h _ _ ?_ ?_, h _ _ ?_ ?_, h _ _ ?_ ?_⟩ <;> simp [ideal]

lemma ideal_ss (t p : ℝ) : (ideal.kG t p).ss = 0 := by simp [ideal, Par.kG, Par.W, load, pairs]

/-- Liquids of SiO2, CaSiO3, CO2 and water. -/
def exA : Finset (Fin 18) := {9, 13, 17}

def exU : Set (Ext 18 → ℝ) := {θ | 0 < θ iT ∧ 0 < θ (.inl 9) ∧ 0 < θ (.inl 13) ∧ 0 < θ (.inl 17) ∧
  θ (.inl 9) + θ (.inl 13) + θ (.inl 17) < 1}

lemma exU_sum (θ : Ext 18 → ℝ) : ∑ j, mask exA (fun j => θ (.inl j)) j = θ (.inl 9) + θ (.inl 13) + θ (.inl 17) := by
  unfold mask exA
  rw [← sum_filter]
  have : (univ.filter fun j : Fin 18 => j ∈ ({9, 13, 17} : Finset (Fin 18))) = {9, 13, 17} := by decide
  rw [this, sum_insert (by decide), sum_insert (by decide), sum_singleton]
  ring

lemma exU_open : IsOpen exU := by
  have c : ∀ i : Ext 18, Continuous fun θ : Ext 18 → ℝ => θ i := fun i => continuous_apply i
  exact (isOpen_lt continuous_const (c iT)).inter <| (isOpen_lt continuous_const (c (.inl 9))).inter <|
    (isOpen_lt continuous_const (c (.inl 13))).inter <| (isOpen_lt continuous_const (c (.inl 17))).inter <|
    isOpen_lt (((c (.inl 9)).add (c (.inl 13))).add (c (.inl 17))) continuous_const

/-- The hypotheses of the theorems on the liquid with carbonate are met. -/
theorem ex_canForm : CanForm ideal exA exU where
  isOpen := exU_open
  ca := by decide
  co2 := by decide
  pos_t θ h := h.1
  smooth θ _ i := ideal_smooth i _ _
  comp θ h j hj := by
    rcases Finset.mem_insert.1 hj with e | hj
    · subst e; exact h.2.1
    rcases Finset.mem_insert.1 hj with e | hj
    · subst e; exact h.2.2.1
    · rw [Finset.mem_singleton.1 hj]; exact h.2.2.2.1
  room θ h := by
    obtain ⟨-, a, b, c, d⟩ := h
    have e9 : mask exA (fun j => θ (.inl j)) 9 = θ (.inl 9) := if_pos (by decide)
    have e13 : mask exA (fun j => θ (.inl j)) 13 = θ (.inl 13) := if_pos (by decide)
    rw [lower_zero (by rw [exU_sum]; linarith)]
    unfold upper
    rw [e9, e13]
    exact lt_min a b
  convex θ h := by
    rw [ideal_ss]
    have := mul_pos R_pos h.1
    linarith

/-- … by the liquid with 20 % CaSiO3, 10 % CO2 and 30 % water at 1500 K and 1 bar. -/
example : env (fun j : Fin 18 => if j = 9 then 1 / 5 else if j = 13 then 1 / 10 else if j = 17 then 3 / 10 else 0) 1500 1 ∈ exU := by
  have e : ∀ i : Fin 18, env (fun j : Fin 18 => if j = 9 then 1 / 5 else if j = 13 then 1 / 10 else if j = 17 then 3 / 10 else 0) 1500 1
      (.inl i) = if i = 9 then 1 / 5 else if i = 13 then 1 / 10 else if i = 17 then 3 / 10 else 0 := fun i => rfl
  refine ⟨?_, ?_, ?_, ?_, ?_⟩
  · change (0 : ℝ) < 1500; norm_num
  · rw [e, if_pos rfl]; norm_num
  · rw [e, if_neg (by decide), if_pos rfl]; norm_num
  · rw [e, if_neg (by decide), if_neg (by decide), if_pos rfl]; norm_num
  · rw [e, e, e, if_pos rfl, if_neg (by decide), if_pos rfl, if_neg (by decide), if_neg (by decide), if_pos rfl]; norm_num

example : Speciated ideal exA (eqX ideal) exU := C66_speciation ex_canForm

/-- A liquid without CO2. -/
example : Pinned ideal {9} (fun _ => 0) {θ | 0 < θ iT ∧ 0 < θ (.inl 9) ∧ θ (.inl 9) < 1} where
  isOpen := by
    have c : ∀ i : Ext 18, Continuous fun θ : Ext 18 → ℝ => θ i := fun i => continuous_apply i
    exact (isOpen_lt continuous_const (c iT)).inter <| (isOpen_lt continuous_const (c (.inl 9))).inter <|
      isOpen_lt (c (.inl 9)) continuous_const
  pos_t θ h := h.1
  smooth θ _ i := ideal_smooth i _ _
  sio2 θ h := by
    have e : spAt {9} (fun _ => 0) θ 0 = 1 - ∑ j, mask {9} (fun j => θ (.inl j)) j + 0 := by
      unfold spAt spOf; rw [pt_mk]; rfl
    have e2 : ∑ j, mask {9} (fun j => θ (.inl j)) j = θ (.inl 9) := by simp [mask]
    rw [e, e2]; linarith [h.2.2]
  comp θ h j hj := by rw [Finset.mem_singleton.1 hj]; exact h.2.1
  caco3 θ _ := rfl

/-- The hypotheses on the composition in the statements about `order()` are met. -/
example : let r : Fin 18 → ℝ := fun j => if j = 9 then 1 / 5 else if j = 13 then 1 / 10 else 0
    (∀ j, 0 ≤ r j) ∧ ∑ j, r j ≤ 1 ∧ sqrtEps ≤ r 9 ∧ sqrtEps ≤ r 13 := by
  refine ⟨fun j => ?_, ?_, ?_, ?_⟩
  · dsimp only; split_ifs <;> norm_num
  · have hs : ∀ j : Fin 18, (if j = 9 then (1 / 5 : ℝ) else if j = 13 then 1 / 10 else 0)
        = (if j = 9 then 1 / 5 else 0) + if j = 13 then 1 / 10 else 0 := by
      intro j
      by_cases h : j = 9
      · subst h; simp
      · simp [h]
    simp only [hs, sum_add_distrib, sum_ite_eq', mem_univ, if_true]
    norm_num
  · norm_num [sqrtEps]
  · change sqrtEps ≤ if (13 : Fin 18) = 9 then (1 / 5 : ℝ) else if (13 : Fin 18) = 13 then 1 / 10 else 0
    rw [if_neg (by decide), if_pos rfl]
    norm_num [sqrtEps]

/-- … and those of `C66_initial_guess_silica_poor`. -/
example : let r : Fin 18 → ℝ := fun j => if j = 9 ∨ j = 13 then 9 / 10 else 0
    (∀ j, 0 ≤ r j) ∧ 3 / 2 < ∑ j, r j ∧ upper r < 1 ∧ ∑ j, r j - 1 + sqrtEps ≤ upper r := by
  have hs : ∑ j : Fin 18, (if j = 9 ∨ j = 13 then (9 / 10 : ℝ) else 0) = 9 / 5 := by
    rw [Finset.sum_ite, sum_const_zero, add_zero, sum_const]
    have : (univ.filter fun j : Fin 18 => j = 9 ∨ j = 13).card = 2 := by decide
    rw [this]; norm_num
  refine ⟨fun j => ?_, ?_, ?_, ?_⟩
  · dsimp only; split_ifs <;> norm_num
  · rw [hs]; norm_num
  · norm_num [upper]
  · rw [hs]; norm_num [upper, sqrtEps]

end

end Verif.Thermo.LiquidCO2
