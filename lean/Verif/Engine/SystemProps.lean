import Verif.Engine.SystemPhase

/-!
The gradient and the Hessian of the system are derivatives of its potential.
-/

namespace Magma.Engine.System

open Finset Filter Topology Magma.Thermo.Extensive Magma.Thermo.Compo

noncomputable section

/-! ### Specification -/

/-- The unknowns with `h` added to number `i`. -/
def shift (y : ℕ → ℝ) (i : ℕ) (h : ℝ) (k : ℕ) : ℝ := y k + if k = i then h else 0

/-- The partial derivative in unknown `i`. -/
def slope (f : (ℕ → ℝ) → ℝ) (i : ℕ) (y : ℕ → ℝ) : ℝ := deriv (fun h => f (shift y i h)) 0

/-- The amounts of the end members of a phase whose rows begin at `k`. -/
def Phase.amounts (ph : Phase) (k : ℕ) (y : ℕ → ℝ) (j : Fin ph.na) : ℝ :=
  if j ∈ ph.slots then y (k + ph.slots.idxOf j) else 0

/-- A quantity summed over the phases, as a function of the unknowns: the amounts row by row, and unknown `N` for
temperature or pressure. -/
def total (f : (ph : Phase) → ℝ → ℝ → (Fin ph.na → ℝ) → ℝ) (mode : Mode) (T P : ℝ) (N : ℕ) :
    ℕ → List Phase → (ℕ → ℝ) → ℝ
  | _, [], _ => 0
  | k, ph :: L, y => f ph (mode.at T P (y N)).1 (mode.at T P (y N)).2 (ph.amounts k y)
      + total f mode T P N (k + ph.slots.length) L y

/-- The potential of the system. -/
def Psi (mode : Mode) (T P : ℝ) (N : ℕ) (L : List Phase) (y : ℕ → ℝ) : ℝ :=
  total (fun ph => ph.psi mode) mode T P N 0 L y

/-- The quantity that is given. -/
def Con (mode : Mode) (T P : ℝ) (N : ℕ) (L : List Phase) (y : ℕ → ℝ) : ℝ :=
  total (fun ph => ph.con mode) mode T P N 0 L y

/-- The tables of every phase are consistent at the unknowns `y`. -/
def SysOK (mode : Mode) (T P : ℝ) (N : ℕ) : ℕ → List Phase → (ℕ → ℝ) → Prop
  | _, [], _ => True
  | k, ph :: L, y => ph.OK (mode.at T P (y N)).1 (mode.at T P (y N)).2 (ph.amounts k y)
      ∧ SysOK mode T P N (k + ph.slots.length) L y

/-- The present amounts, row by row. -/
def rows : List Phase → List ℝ
  | [] => []
  | ph :: L => ph.slots.map ph.m ++ rows L

/-- The present values of the unknowns. -/
def state (mode : Mode) (T P : ℝ) (L : List Phase) (k : ℕ) : ℝ :=
  if k = (rows L).length then mode.var T P else (rows L).getD k 0

/-! ### One phase at its place among the rows -/

/-- A quantity of a phase with its first and second derivatives in the amounts and in temperature or pressure. -/
structure Jet (ph : Phase) where
  f : ℝ → ℝ → (Fin ph.na → ℝ) → ℝ
  g : ℝ → ℝ → (Fin ph.na → ℝ) → Fin ph.na → ℝ
  t : ℝ → ℝ → (Fin ph.na → ℝ) → ℝ
  gg : ℝ → ℝ → (Fin ph.na → ℝ) → Fin ph.na → Fin ph.na → ℝ
  gt : ℝ → ℝ → (Fin ph.na → ℝ) → Fin ph.na → ℝ
  tt : ℝ → ℝ → (Fin ph.na → ℝ) → ℝ

/-- They are what they say. -/
structure Jet.Ok {ph : Phase} (J : Jet ph) (mode : Mode) (T P : ℝ) (m : Fin ph.na → ℝ) : Prop where
  first : ∀ j ∈ ph.slots, Partial (J.f T P) m j (J.g T P m j)
  second : ∀ j ∈ ph.slots, ∀ l ∈ ph.slots, Partial (fun m => J.g T P m j) m l (J.gg T P m j l)
  theta : HasDerivAt (fun θ => J.f (mode.at T P θ).1 (mode.at T P θ).2 m) (J.t T P m) (mode.var T P)
  g_theta : ∀ j ∈ ph.slots, HasDerivAt (fun θ => J.g (mode.at T P θ).1 (mode.at T P θ).2 m j) (J.gt T P m j) (mode.var T P)
  t_first : ∀ j ∈ ph.slots, Partial (J.t T P) m j (J.gt T P m j)
  t_theta : HasDerivAt (fun θ => J.t (mode.at T P θ).1 (mode.at T P θ).2 m) (J.tt T P m) (mode.var T P)

/-- The gradient among the rows of the system. -/
def Jet.D {ph : Phase} (J : Jet ph) (mode : Mode) (T P : ℝ) (N k : ℕ) (y : ℕ → ℝ) (i : ℕ) : ℝ :=
  if h : k ≤ i ∧ i - k < ph.slots.length then
    J.g (mode.at T P (y N)).1 (mode.at T P (y N)).2 (ph.amounts k y) ph.slots[i - k]
  else if i = N then J.t (mode.at T P (y N)).1 (mode.at T P (y N)).2 (ph.amounts k y) else 0

/-- The Hessian among the rows of the system. -/
def Jet.E {ph : Phase} (J : Jet ph) (mode : Mode) (T P : ℝ) (N k : ℕ) (y : ℕ → ℝ) (i j : ℕ) : ℝ :=
  if h : k ≤ i ∧ i - k < ph.slots.length then
    if h' : k ≤ j ∧ j - k < ph.slots.length then
      J.gg (mode.at T P (y N)).1 (mode.at T P (y N)).2 (ph.amounts k y) ph.slots[i - k] ph.slots[j - k]
    else if j = N then J.gt (mode.at T P (y N)).1 (mode.at T P (y N)).2 (ph.amounts k y) ph.slots[i - k] else 0
  else if i = N then
    if h' : k ≤ j ∧ j - k < ph.slots.length then
      J.gt (mode.at T P (y N)).1 (mode.at T P (y N)).2 (ph.amounts k y) ph.slots[j - k]
    else if j = N then J.tt (mode.at T P (y N)).1 (mode.at T P (y N)).2 (ph.amounts k y) else 0
  else 0

theorem slots_nodup (ph : Phase) : ph.slots.Nodup := (List.nodup_finRange _).filter _

theorem shift_self (y : ℕ → ℝ) (i : ℕ) (h : ℝ) : shift y i h i = y i + h := by simp [shift]

theorem shift_ne {i k : ℕ} (y : ℕ → ℝ) (h : ℝ) (hk : k ≠ i) : shift y i h k = y k := by simp [shift, hk]

theorem shift_zero (y : ℕ → ℝ) (i : ℕ) : shift y i 0 = y := by
  funext k; simp [shift]

theorem amounts_in (ph : Phase) {k i : ℕ} (y : ℕ → ℝ) (h : ℝ) (hi : k ≤ i ∧ i - k < ph.slots.length) :
    ph.amounts k (shift y i h) = bump (ph.amounts k y) ph.slots[i - k] h := by
  funext j
  unfold bump
  unfold Phase.amounts
  by_cases hj : j ∈ ph.slots
  · rw [if_pos hj, if_pos hj]
    unfold shift
    congr 1
    have e : k + ph.slots.idxOf j = i ↔ j = ph.slots[i - k]'hi.2 := by
      constructor
      · intro e
        have : ph.slots.idxOf j = i - k := by omega
        simp only [← this, List.getElem_idxOf]
      · intro e
        rw [e, (slots_nodup ph).idxOf_getElem]
        omega
    simp only [e]
  · rw [if_neg hj, if_neg hj]
    have : j ≠ ph.slots[i - k]'hi.2 := fun e => hj (e ▸ List.getElem_mem _)
    simp [this]

theorem amounts_out (ph : Phase) {k i : ℕ} (y : ℕ → ℝ) (h : ℝ) (hi : ¬ (k ≤ i ∧ i - k < ph.slots.length)) :
    ph.amounts k (shift y i h) = ph.amounts k y := by
  funext j
  unfold Phase.amounts
  by_cases hj : j ∈ ph.slots
  · rw [if_pos hj, if_pos hj]
    have := List.idxOf_lt_length_of_mem hj
    exact shift_ne _ _ (by omega)
  · rw [if_neg hj, if_neg hj]

theorem amounts_off (ph : Phase) (k : ℕ) (y : ℕ → ℝ) {j : Fin ph.na} (hj : j ∉ ph.slots) : ph.amounts k y j = 0 := if_neg hj

/-- A derivative in temperature or pressure as one along the unknown. -/
theorem along {f : ℝ × ℝ → ℝ} {d T P x : ℝ} (mode : Mode)
    (h : HasDerivAt (fun θ => f (mode.at (mode.at T P x).1 (mode.at T P x).2 θ)) d
      (mode.var (mode.at T P x).1 (mode.at T P x).2)) :
    HasDerivAt (fun h => f (mode.at T P (x + h))) d 0 := by
  have e : ∀ x', HasDerivAt (fun θ => f (mode.at T P θ)) d x' → HasDerivAt (fun h => f (mode.at T P (x' + h))) d 0 := by
    intro x' h
    have := HasDerivAt.comp_const_add (f := fun θ => f (mode.at T P θ)) x' 0 (by rwa [add_zero])
    exact this
  cases mode
  · exact flat_deriv (fun _ => rfl) (h.unique (flat_deriv (fun _ => rfl) rfl))
  · exact e x h
  · exact e x h
  · exact e x h

section one
variable {ph : Phase} {J : Jet ph} {mode : Mode} {T P : ℝ} {N k : ℕ} {y : ℕ → ℝ}
  (ok : J.Ok mode (mode.at T P (y N)).1 (mode.at T P (y N)).2 (ph.amounts k y)) (hN : k + ph.slots.length ≤ N)
include ok hN

theorem one_first (i : ℕ) :
    HasDerivAt (fun h => J.f (mode.at T P (shift y i h N)).1 (mode.at T P (shift y i h N)).2 (ph.amounts k (shift y i h)))
      (J.D mode T P N k y i) 0 := by
  unfold Jet.D
  by_cases hi : k ≤ i ∧ i - k < ph.slots.length
  · rw [dif_pos hi]
    have e : (fun h => J.f (mode.at T P (shift y i h N)).1 (mode.at T P (shift y i h N)).2 (ph.amounts k (shift y i h)))
        = fun h => J.f (mode.at T P (y N)).1 (mode.at T P (y N)).2 (bump (ph.amounts k y) ph.slots[i - k] h) :=
      funext fun h => by rw [shift_ne y h (show N ≠ i by omega), amounts_in ph y h hi]
    rw [e]
    exact ok.first _ (List.getElem_mem _)
  · rw [dif_neg hi]
    by_cases hiN : i = N
    · rw [if_pos hiN]
      have e : (fun h => J.f (mode.at T P (shift y i h N)).1 (mode.at T P (shift y i h N)).2 (ph.amounts k (shift y i h)))
          = fun h => J.f (mode.at T P (y N + h)).1 (mode.at T P (y N + h)).2 (ph.amounts k y) :=
        funext fun h => by rw [amounts_out ph y h hi, hiN, shift_self]
      rw [e]
      exact along (f := fun q => J.f q.1 q.2 (ph.amounts k y)) mode ok.theta
    · rw [if_neg hiN]
      have e : (fun h => J.f (mode.at T P (shift y i h N)).1 (mode.at T P (shift y i h N)).2 (ph.amounts k (shift y i h)))
          = fun h => J.f (mode.at T P (y N)).1 (mode.at T P (y N)).2 (ph.amounts k y) :=
        funext fun h => by rw [amounts_out ph y h hi, shift_ne y h (Ne.symm hiN)]
      rw [e]
      exact hasDerivAt_const _ _

theorem one_second (i j : ℕ) :
    HasDerivAt (fun h => J.D mode T P N k (shift y j h) i) (J.E mode T P N k y i j) 0 := by
  unfold Jet.D Jet.E
  by_cases hj : k ≤ j ∧ j - k < ph.slots.length
  · have e1 : ∀ h, shift y j h N = y N := fun h => shift_ne y h (show N ≠ j by omega)
    simp only [e1, amounts_in ph y _ hj]
    by_cases hi : k ≤ i ∧ i - k < ph.slots.length
    · simp only [hi, hj, and_self, dif_pos]
      exact ok.second _ (List.getElem_mem _) _ (List.getElem_mem _)
    · rw [dif_neg hi]
      simp only [dif_neg hi, dif_pos hj]
      by_cases hiN : i = N
      · simp only [if_pos hiN]
        exact ok.t_first _ (List.getElem_mem _)
      · simp only [if_neg hiN]
        exact hasDerivAt_const _ _
  · simp only [amounts_out ph y _ hj, dif_neg hj]
    by_cases hjN : j = N
    · simp only [hjN, shift_self, if_true]
      by_cases hi : k ≤ i ∧ i - k < ph.slots.length
      · simp only [dif_pos hi]
        exact along (f := fun q => J.g q.1 q.2 (ph.amounts k y) ph.slots[i - k]) mode (ok.g_theta _ (List.getElem_mem _))
      · simp only [dif_neg hi]
        by_cases hiN : i = N
        · simp only [if_pos hiN]
          exact along (f := fun q => J.t q.1 q.2 (ph.amounts k y)) mode ok.t_theta
        · simp only [if_neg hiN]
          exact hasDerivAt_const _ _
    · have e1 : ∀ h, shift y j h N = y N := fun h => shift_ne y h (Ne.symm hjN)
      simp only [e1, if_neg hjN, dite_eq_ite, ite_self]
      exact hasDerivAt_const _ _

end one

/-! ### The sum over the phases -/

section all
variable (J : (ph : Phase) → Jet ph) (mode : Mode) (T P : ℝ) (N : ℕ)

/-- Gradient of the sum. -/
def sumD : ℕ → List Phase → (ℕ → ℝ) → ℕ → ℝ
  | _, [], _, _ => 0
  | k, ph :: L, y, i => (J ph).D mode T P N k y i + sumD (k + ph.slots.length) L y i

/-- Hessian of the sum. -/
def sumE : ℕ → List Phase → (ℕ → ℝ) → ℕ → ℕ → ℝ
  | _, [], _, _, _ => 0
  | k, ph :: L, y, i, j => (J ph).E mode T P N k y i j + sumE (k + ph.slots.length) L y i j

/-- The quantities of all phases have the derivatives they say. -/
def AllOk : ℕ → List Phase → (ℕ → ℝ) → Prop
  | _, [], _ => True
  | k, ph :: L, y => (J ph).Ok mode (mode.at T P (y N)).1 (mode.at T P (y N)).2 (ph.amounts k y)
      ∧ AllOk (k + ph.slots.length) L y

variable {J mode T P N}

theorem all_first (L : List Phase) : ∀ (k : ℕ) (y : ℕ → ℝ), AllOk J mode T P N k L y → k + (rows L).length ≤ N → ∀ i,
    HasDerivAt (fun h => total (fun ph => (J ph).f) mode T P N k L (shift y i h)) (sumD J mode T P N k L y i) 0 := by
  induction L with
  | nil => exact fun k y _ _ i => hasDerivAt_const _ _
  | cons ph L ih =>
    intro k y ok hN i
    simp only [rows, List.length_append, List.length_map] at hN
    exact (one_first ok.1 (by omega) i).add (ih _ y ok.2 (by omega) i)

theorem all_second (L : List Phase) : ∀ (k : ℕ) (y : ℕ → ℝ), AllOk J mode T P N k L y → k + (rows L).length ≤ N → ∀ i j,
    HasDerivAt (fun h => sumD J mode T P N k L (shift y j h) i) (sumE J mode T P N k L y i j) 0 := by
  induction L with
  | nil => exact fun k y _ _ i j => hasDerivAt_const _ _
  | cons ph L ih =>
    intro k y ok hN i j
    simp only [rows, List.length_append, List.length_map] at hN
    exact (one_second ok.1 (by omega) i j).add (ih _ y ok.2 (by omega) i j)

theorem continuous_shift (y : ℕ → ℝ) (i : ℕ) : Continuous fun h => shift y i h := by
  refine continuous_pi fun k => ?_
  unfold shift
  split_ifs
  · exact continuous_const.add continuous_id
  · exact continuous_const

theorem near {p : (ℕ → ℝ) → Prop} {y : ℕ → ℝ} (h : ∀ᶠ z in 𝓝 y, p z) (i : ℕ) : ∀ᶠ t in 𝓝 (0 : ℝ), p (shift y i t) := by
  have : Tendsto (fun t => shift y i t) (𝓝 0) (𝓝 y) := by
    have := (continuous_shift y i).tendsto 0
    rwa [shift_zero] at this
  exact this.eventually h

theorem all_slope {L : List Phase} {y : ℕ → ℝ} (ok : ∀ᶠ z in 𝓝 y, AllOk J mode T P N 0 L z) (hN : (rows L).length ≤ N)
    (i j : ℕ) : HasDerivAt (fun h => slope (total (fun ph => (J ph).f) mode T P N 0 L) i (shift y j h))
      (sumE J mode T P N 0 L y i j) 0 := by
  refine (all_second L 0 y ok.self_of_nhds (by omega) i j).congr_of_eventuallyEq ?_
  filter_upwards [near ok j] with h hh
  exact (all_first L 0 _ hh (by omega) i).deriv

end all

/-! ### The potential and the given quantity -/

/-- The potential of a phase. -/
def psiJet (mode : Mode) (ph : Phase) : Jet ph where
  f := ph.psi mode
  g T P m := (ph.vals mode T P m).g
  t T P m := psiT mode T P (ph.vals mode T P m).p
  gg T P m := (ph.vals mode T P m).h
  gt T P m j := psiTj mode T P ((ph.vals mode T P m).dp j)
  tt T P m := psiTT mode T P (ph.vals mode T P m).p (ph.vals mode T P m).d2p

/-- The given quantity. -/
def conJet (mode : Mode) (ph : Phase) : Jet ph where
  f := ph.con mode
  g := ph.dcon mode
  t T P m := mode.kcon T * (ph.vals mode T P m).p
  gg T P m := (ph.vals mode T P m).c
  gt T P m j := mode.kcon T * (ph.vals mode T P m).dp j
  tt T P m := -conTT mode T (ph.vals mode T P m).p (ph.vals mode T P m).d2p

theorem psi_ok {ph : Phase} {T P : ℝ} {m : Fin ph.na → ℝ} (ok : ph.OK T P m) (hm : ∀ j, j ∉ ph.slots → m j = 0)
    (mode : Mode) : (psiJet mode ph).Ok mode T P m where
  first _ hj := psi_first ok hm mode hj
  second _ hj _ hl := psi_second ok hm mode hj hl
  theta := psi_theta ok hm mode
  g_theta _ hj := g_theta ok hm mode hj
  t_first j hj := by
    simp only [psiJet, psiT_eq, psiTj_eq]
    exact HasDerivAt.const_mul _ (cap_first ok hm mode hj)
  t_theta := psiT_theta ok hm mode

theorem con_ok {ph : Phase} {T P : ℝ} {m : Fin ph.na → ℝ} (ok : ph.OK T P m) (hm : ∀ j, j ∉ ph.slots → m j = 0)
    (mode : Mode) : (conJet mode ph).Ok mode T P m where
  first _ hj := con_first ok hm mode hj
  second _ hj _ hl := con_second ok hm mode hj hl
  theta := con_theta ok hm mode
  g_theta _ hj := dcon_theta ok hm mode hj
  t_first _ hj := HasDerivAt.const_mul _ (cap_first ok hm mode hj)
  t_theta := conT_theta ok hm mode

theorem all_ok {mode : Mode} {T P : ℝ} {N : ℕ} (L : List Phase) : ∀ (k : ℕ) (y : ℕ → ℝ), SysOK mode T P N k L y →
    AllOk (psiJet mode) mode T P N k L y ∧ AllOk (conJet mode) mode T P N k L y := by
  induction L with
  | nil => exact fun k y _ => ⟨trivial, trivial⟩
  | cons ph L ih =>
    intro k y ok
    obtain ⟨h1, h2⟩ := ih _ y ok.2
    exact ⟨⟨psi_ok ok.1 (fun j => amounts_off ph k y) mode, h1⟩, ⟨con_ok ok.1 (fun j => amounts_off ph k y) mode, h2⟩⟩

/-! ### The matrices of the code -/

/-- The unknowns list the amounts. -/
def Match (N : ℕ) : ℕ → List Phase → (ℕ → ℝ) → Prop
  | _, [], _ => True
  | k, ph :: L, y => ph.amounts k y = ph.m ∧ Match N (k + ph.slots.length) L y

theorem m_off (ph : Phase) {j : Fin ph.na} (h : j ∉ ph.slots) : ph.m j = 0 := by
  by_contra h'
  exact h (by simp [Phase.slots, h'])

theorem match_append {N : ℕ} (L : List Phase) : ∀ (pre : List ℝ) (y : ℕ → ℝ),
    (∀ q < pre.length + (rows L).length, y q = (pre ++ rows L).getD q 0) → Match N pre.length L y := by
  induction L with
  | nil => exact fun _ _ _ => trivial
  | cons ph L ih =>
    intro pre y h
    constructor
    · funext j
      unfold Phase.amounts
      by_cases hj : j ∈ ph.slots
      · rw [if_pos hj]
        have hl := List.idxOf_lt_length_of_mem hj
        rw [h _ (by simp [rows]; omega)]
        rw [List.getD_eq_getElem?_getD, List.getElem?_append_right (by omega), rows, Nat.add_sub_cancel_left,
          List.getElem?_append_left (by simpa using hl), List.getElem?_map, List.getElem?_eq_getElem hl]
        simp [List.getElem_idxOf]
      · rw [if_neg hj, m_off ph hj]
    · have := ih (pre ++ ph.slots.map ph.m) y (fun q hq => by
        rw [List.append_assoc]
        exact h q (by simpa [rows, add_assoc] using hq))
      simpa using this

theorem match_state (mode : Mode) (T P : ℝ) (L : List Phase) {N : ℕ} : Match N 0 L (state mode T P L) := by
  refine match_append L [] _ fun q hq => ?_
  simp only [List.length_nil, zero_add] at hq
  rw [state, if_neg hq.ne, List.nil_append]

section assemble
variable {mode : Mode} {nl : Bool} {T P : ℝ} {N : ℕ}

theorem assemble_e (L : List Phase) : ∀ (k : ℕ) (S : Mats) (y : ℕ → ℝ), Match N k L y → mode.at T P (y N) = (T, P) → ∀ i j,
    (assemble mode nl T P N k L S).e i j = S.e i j + sumE (psiJet mode) mode T P N k L y i j := by
  induction L with
  | nil => exact fun k S y _ _ i j => (add_zero _).symm
  | cons ph L ih =>
    intro k S y h hv i j
    rw [assemble, ih _ _ y h.2 hv, sumE, ← add_assoc]
    congr 1
    unfold Jet.E put
    simp only [hv, h.1]
    rfl

theorem assemble_c (L : List Phase) : ∀ (k : ℕ) (S : Mats) (y : ℕ → ℝ), Match N k L y → mode.at T P (y N) = (T, P) → ∀ i j,
    (assemble mode nl T P N k L S).c i j = S.c i j - sumE (conJet mode) mode T P N k L y i j := by
  induction L with
  | nil => exact fun k S y _ _ i j => (sub_zero _).symm
  | cons ph L ih =>
    intro k S y h hv i j
    rw [assemble, ih _ _ y h.2 hv, sumE, ← sub_sub]
    congr 1
    unfold Jet.E put
    simp only [hv, h.1, conTj_eq]
    rw [sub_eq_add_neg]
    congr 1
    split_ifs <;> simp [conJet]

theorem assemble_b (hnl : nl = true) (L : List Phase) : ∀ (k : ℕ) (S : Mats) (y : ℕ → ℝ), Match N k L y →
    mode.at T P (y N) = (T, P) → ∀ i,
    (assemble mode nl T P N k L S).b i = S.b i - sumD (psiJet mode) mode T P N k L y i := by
  induction L with
  | nil => exact fun k S y _ _ i => (sub_zero _).symm
  | cons ph L ih =>
    intro k S y h hv i
    rw [assemble, ih _ _ y h.2 hv, sumD, ← sub_sub]
    congr 1
    unfold Jet.D put
    simp only [hv, h.1, hnl, if_true, add_zero]
    rw [sub_eq_add_neg]
    congr 1
    split_ifs <;> simp [psiJet]

/-- The sum over one phase's rows. -/
theorem sum_slots (ph : Phase) {k N : ℕ} (hN : k + ph.slots.length ≤ N) (y : ℕ → ℝ) (F : Fin ph.na → ℝ) :
    ∑ l ∈ range N, (if h : k ≤ l ∧ l - k < ph.slots.length then F ph.slots[l - k] else 0) * y l
      = (ph.slots.map fun j => ph.amounts k y j * F j).sum := by
  have e1 : (ph.slots.map fun j => ph.amounts k y j * F j).sum
      = ∑ q ∈ range ph.slots.length, if h : q < ph.slots.length then F ph.slots[q] * y (k + q) else 0 := by
    rw [← Fin.sum_univ_getElem, sum_range]
    simp only [List.length_map, Fin.is_lt, dite_true, List.getElem_map]
    refine Fintype.sum_equiv (finCongr (by simp)) _ _ fun q => ?_
    simp only [finCongr_apply, Fin.val_cast]
    unfold Phase.amounts
    rw [if_pos (List.getElem_mem _), (slots_nodup ph).idxOf_getElem, mul_comm]
  rw [e1, ← sum_subset (s₁ := Ico k (k + ph.slots.length)) (fun l hl => by simp at hl ⊢; omega)
    (fun l _ hl => by
      simp only [mem_Ico, not_and, not_lt] at hl
      rw [dif_neg (by rintro ⟨h1, h2⟩; have := hl h1; omega), zero_mul]),
    sum_Ico_eq_sum_range, Nat.add_sub_cancel_left]
  refine sum_congr rfl fun q hq => ?_
  have := mem_range.mp hq
  rw [dif_pos this, dif_pos ⟨by omega, by omega⟩]
  simp only [Nat.add_sub_cancel_left]

theorem assemble_b_gibbs (L : List Phase) : ∀ (k : ℕ) (S : Mats) (y : ℕ → ℝ), Match N k L y → k + (rows L).length ≤ N →
    ∀ i, (assemble .gibbs false T P N k L S).b i = S.b i - sumD (psiJet .gibbs) .gibbs T P N k L y i
      + ∑ l ∈ range N, sumE (psiJet .gibbs) .gibbs T P N k L y i l * y l := by
  induction L with
  | nil => intro k S y _ _ i; simp [assemble, sumD, sumE]
  | cons ph L ih =>
    intro k S y h hN i
    simp only [rows, List.length_append, List.length_map] at hN
    rw [assemble, ih _ _ y h.2 (by omega), sumD]
    simp only [sumE, add_mul, sum_add_distrib]
    have key : (put .gibbs false T P N k ph S).b i = S.b i - (psiJet .gibbs ph).D .gibbs T P N k y i
        + ∑ l ∈ range N, (psiJet .gibbs ph).E .gibbs T P N k y i l * y l := by
      unfold Jet.D Jet.E put
      simp only [Mode.at, h.1, psiJet, Bool.false_eq_true, if_false]
      by_cases hi : k ≤ i ∧ i - k < ph.slots.length
      · simp only [dif_pos hi]
        have := sum_slots ph (k := k) (N := N) (by omega) y ((ph.vals .gibbs T P ph.m).h (ph.slots[i - k]'hi.2))
        rw [h.1] at this
        rw [← this]
        have e : ∀ l, (if h' : k ≤ l ∧ l - k < ph.slots.length then (ph.vals .gibbs T P ph.m).h ph.slots[i - k] ph.slots[l - k]
            else if l = N then psiTj .gibbs T P ((ph.vals .gibbs T P ph.m).dp ph.slots[i - k]) else 0)
            = if h' : k ≤ l ∧ l - k < ph.slots.length then (ph.vals .gibbs T P ph.m).h ph.slots[i - k] ph.slots[l - k] else 0 := by
          intro l
          split_ifs <;> rfl
        simp only [e]
        ring
      · simp only [dif_neg hi]
        have e : ∀ l, (if i = N then (if h' : k ≤ l ∧ l - k < ph.slots.length then
            psiTj .gibbs T P ((ph.vals .gibbs T P ph.m).dp ph.slots[l - k])
            else if l = N then psiTT .gibbs T P (ph.vals .gibbs T P ph.m).p (ph.vals .gibbs T P ph.m).d2p else 0) else 0) = 0 := by
          intro l
          split_ifs <;> rfl
        simp only [e, zero_mul, sum_const_zero, add_zero]
        split_ifs
        · exact (sub_eq_add_neg _ _).symm
        · rw [sub_zero, add_zero]
    rw [key]
    ring

end assemble

/-! ### Theorems -/

section main
variable (mode : Mode) (T P : ℝ) (L : List Phase)

theorem at_state : mode.at T P (state mode T P L (rows L).length) = (T, P) := by
  rw [state, if_pos rfl, at_var]

/-- **C69.** At given enthalpy, entropy or volume, the right-hand side the code assembles is minus the gradient of the
potential in the amounts and in temperature or pressure. -/
theorem C69_gradient (hmode : mode ≠ .gibbs)
    (ok : SysOK mode T P (rows L).length 0 L (state mode T P L)) (i : ℕ) :
    HasDerivAt (fun h => Psi mode T P (rows L).length L (shift (state mode T P L) i h))
      (-(assemble mode (hasNlCon mode false) T P (rows L).length 0 L Mats.zero).b i) 0 := by
  rw [assemble_b (by simp [hasNlCon, hmode]) L 0 _ _ (match_state mode T P L) (at_state mode T P L)]
  refine (all_first L 0 _ (all_ok L 0 _ ok).1 (by omega) i).congr_deriv ?_
  change _ = -(0 - _)
  ring

/-- **C69.** At given temperature and pressure, the right-hand side the code assembles is the Hessian times the present
amounts minus the gradient of the Gibbs energy. -/
theorem C69_gibbs_gradient (ok : SysOK .gibbs T P (rows L).length 0 L (state .gibbs T P L)) (i : ℕ) :
    HasDerivAt (fun h => Psi .gibbs T P (rows L).length L (shift (state .gibbs T P L) i h))
      (∑ l ∈ range (rows L).length, (assemble .gibbs (hasNlCon .gibbs false) T P (rows L).length 0 L Mats.zero).e i l * state .gibbs T P L l
        - (assemble .gibbs (hasNlCon .gibbs false) T P (rows L).length 0 L Mats.zero).b i) 0 := by
  rw [show hasNlCon .gibbs false = false from rfl, assemble_b_gibbs L 0 _ _ (match_state .gibbs T P L) (by omega)]
  simp only [assemble_e L 0 _ _ (match_state .gibbs T P L) (at_state .gibbs T P L)]
  refine (all_first L 0 _ (all_ok L 0 _ ok).1 (by omega) i).congr_deriv ?_
  simp only [Mats.zero, zero_add]
  ring

/-- **C69.** The matrix the code assembles is the Hessian of the potential. -/
theorem C69_hessian (ok : ∀ᶠ z in 𝓝 (state mode T P L), SysOK mode T P (rows L).length 0 L z) (i j : ℕ) :
    HasDerivAt (fun h => slope (Psi mode T P (rows L).length L) i (shift (state mode T P L) j h))
      ((assemble mode (hasNlCon mode false) T P (rows L).length 0 L Mats.zero).e i j) 0 := by
  rw [assemble_e L 0 _ _ (match_state mode T P L) (at_state mode T P L)]
  refine (all_slope (ok.mono fun z hz => (all_ok L 0 z hz).1) le_rfl i j).congr_deriv ?_
  exact (zero_add _).symm

/-- **C69.** The second matrix is minus the Hessian of the quantity that is given. -/
theorem C69_constraint_hessian (ok : ∀ᶠ z in 𝓝 (state mode T P L), SysOK mode T P (rows L).length 0 L z) (i j : ℕ) :
    HasDerivAt (fun h => slope (Con mode T P (rows L).length L) i (shift (state mode T P L) j h))
      (-(assemble mode (hasNlCon mode false) T P (rows L).length 0 L Mats.zero).c i j) 0 := by
  rw [assemble_c L 0 _ _ (match_state mode T P L) (at_state mode T P L)]
  refine (all_slope (ok.mono fun z hz => (all_ok L 0 z hz).2) le_rfl i j).congr_deriv ?_
  simp [Mats.zero]

/-- **C69.** With the multiplier of the given quantity, the matrix is the Hessian of the Lagrangian. -/
theorem C69_lagrangian (lambda : ℝ) (hmode : mode ≠ .gibbs)
    (ok : ∀ᶠ z in 𝓝 (state mode T P L), SysOK mode T P (rows L).length 0 L z) (i j : ℕ) :
    HasDerivAt (fun h => slope (fun y => Psi mode T P (rows L).length L y - lambda * Con mode T P (rows L).length L y) i
        (shift (state mode T P L) j h))
      (corrected mode lambda (assemble mode (hasNlCon mode false) T P (rows L).length 0 L Mats.zero) i j) 0 := by
  have h1 := C69_hessian mode T P L ok i j
  have h2 := C69_constraint_hessian mode T P L ok i j
  rw [corrected, if_neg hmode]
  refine ((h1.sub (h2.const_mul lambda)).congr_deriv (by ring)).congr_of_eventuallyEq ?_
  filter_upwards [near ok j] with h hh
  have e1 := all_first L 0 _ (all_ok L 0 _ hh).1 (by omega) i
  have e2 := all_first L 0 _ (all_ok L 0 _ hh).2 (by omega) i
  change deriv _ _ = deriv _ _ - lambda * deriv _ _
  exact (HasDerivAt.deriv (e1.sub (e2.const_mul lambda))).trans (by rw [← e1.deriv, ← e2.deriv]; rfl)

end main

/-! ### The constraints -/

theorem on_h {nr : ℕ} (M : Magma.Thermo.Mixing.Mix nr) (T P : ℝ) (A : Finset (Fin nr)) (r : Fin nr → ℝ) (h : ∀ i ∉ A, r i = 0) :
    (Verif.Thermo.Ordering.on A M).h T P r = M.h T P r := on_vals M T P A r h (·.h)

theorem conRow_eq {ph : Phase} {T P : ℝ} (ok : ph.OK T P ph.m) (mode : Mode) (j : Fin ph.na) :
    ph.conRow mode T P j = ph.dcon mode T P ph.m j := by
  unfold Phase.conRow Phase.dcon
  cases mode
  · rfl
  · by_cases hp : ph.pure = true
    · simp only [hp, if_true]; rfl
    · simp only [hp]
      obtain ⟨h0, hC, A, I, hM, hr, hst⟩ := ok.sol (by simpa using hp)
      have hA := hst ph.m fun j => m_off ph
      have e : ph.mix.h T P (ph.conv.toR ph.m) = ph.mix.g T P (ph.conv.toR ph.m) + T * ph.mix.s T P (ph.conv.toR ph.m) := by
        have := hM.h_eq T P _ hr.self_of_nhds
        rwa [on_h _ _ _ _ _ hA, on_g _ _ _ _ _ hA, on_s _ _ _ _ _ hA] at this
      have e' : (conG ph.mix ph.std .isenthalpic T P).p (ph.conv.toR ph.m) = (conM ph.mix ph.std .isenthalpic T P).p (ph.conv.toR ph.m) := e
      unfold d1
      rw [e']
      rfl
  · rfl
  · rfl

theorem conT_eq (mode : Mode) (T p : ℝ) : conT mode T p = mode.kcon T * p := by
  cases mode <;> simp only [conT, Mode.kcon] <;> ring

/-- What the entry for temperature or pressure leaves out: the contributions before a liquid that is not the first phase. -/
def lost (mode : Mode) (T P : ℝ) : List Phase → ℝ → ℝ
  | [], _ => 0
  | ph :: L, s => (if ph.liq then s else 0)
      + lost mode T P L ((if ph.liq then 0 else s) + conT mode T (ph.vals mode T P ph.m).p)

theorem conRow_list (mode : Mode) (T P : ℝ) (L : List Phase) : ∀ s, (conRow mode T P L s).1
    = s.1 ++ (conRow mode T P L ([], 0)).1 ∧ (conRow mode T P L ([], 0)).1.length = (rows L).length := by
  induction L with
  | nil => intro s; simp [conRow, rows]
  | cons ph L ih =>
    intro s
    simp only [conRow, rows]
    constructor
    · rw [(ih _).1]
      conv_rhs => rw [(ih _).1]
      simp
    · rw [(ih _).1]
      simp [(ih ([], 0)).2]

section constraints
variable {mode : Mode} {T P : ℝ} {N : ℕ}

theorem con_entries (L : List Phase) : ∀ (k : ℕ) (y : ℕ → ℝ), SysOK mode T P N k L y → Match N k L y →
    mode.at T P (y N) = (T, P) → k + (rows L).length ≤ N → ∀ i < N,
    sumD (conJet mode) mode T P N k L y i = if k ≤ i then (conRow mode T P L ([], 0)).1.getD (i - k) 0 else 0 := by
  induction L with
  | nil => intro k y _ _ _ _ i _; simp [sumD, conRow]
  | cons ph L ih =>
    intro k y ok h hv hN i hi
    simp only [rows, List.length_append, List.length_map] at hN
    rw [sumD, ih _ y ok.2 h.2 hv (by omega) i hi]
    have e1 : (conRow mode T P (ph :: L) ([], 0)).1 = ph.slots.map (ph.conRow mode T P) ++ (conRow mode T P L ([], 0)).1 := by
      rw [conRow, (conRow_list mode T P L _).1, List.nil_append]
    rw [e1]
    have hok : ph.OK T P ph.m := by
      have := ok.1
      rwa [hv, h.1] at this
    unfold Jet.D
    simp only [hv, h.1, conJet, ← conRow_eq hok]
    by_cases hk : k ≤ i
    · simp only [hk, true_and, if_true]
      by_cases hl : i - k < ph.slots.length
      · rw [dif_pos hl, if_neg (by omega), add_zero, List.getD_eq_getElem?_getD, List.getElem?_append_left (by simpa using hl),
          List.getElem?_map, List.getElem?_eq_getElem hl]
        simp
      · rw [dif_neg hl, if_neg hi.ne, if_pos (by omega), zero_add]
        simp only [List.getD_eq_getElem?_getD]
        rw [List.getElem?_append_right (by simp; omega), List.length_map, Nat.sub_add_eq]
    · rw [dif_neg (by omega), if_neg hi.ne, if_neg (by omega), if_neg hk, zero_add]

theorem con_last (L : List Phase) : ∀ (k : ℕ) (y : ℕ → ℝ) (s : List ℝ × ℝ), Match N k L y →
    mode.at T P (y N) = (T, P) → k + (rows L).length ≤ N →
    s.2 + sumD (conJet mode) mode T P N k L y N = (conRow mode T P L s).2 + lost mode T P L s.2 := by
  induction L with
  | nil => intro k y s _ _ _; simp [sumD, conRow, lost]
  | cons ph L ih =>
    intro k y s h hv hN
    simp only [rows, List.length_append, List.length_map] at hN
    have hD : (conJet mode ph).D mode T P N k y N = conT mode T (ph.vals mode T P ph.m).p := by
      unfold Jet.D
      rw [dif_neg (by omega), if_pos rfl]
      simp only [hv, h.1, conJet, conT_eq]
    rw [sumD, hD, conRow, lost]
    by_cases hl : ph.liq = true
    · have := ih (k + ph.slots.length) y (s.1 ++ ph.slots.map (ph.conRow mode T P), conT mode T (ph.vals mode T P ph.m).p) h.2 hv
        (by omega)
      simp only [hl, if_true, zero_add] at this ⊢
      linarith
    · have := ih (k + ph.slots.length) y (s.1 ++ ph.slots.map (ph.conRow mode T P), s.2 + conT mode T (ph.vals mode T P ph.m).p)
        h.2 hv (by omega)
      simp only [hl] at this ⊢
      simp only [Bool.false_eq_true, if_false, zero_add] at this ⊢
      linarith

end constraints

theorem lost_solids (mode : Mode) (T P : ℝ) (L : List Phase) (h : ∀ ph ∈ L, ph.liq = false) : ∀ s, lost mode T P L s = 0 := by
  induction L with
  | nil => exact fun _ => rfl
  | cons ph L ih =>
    intro s
    rw [lost, ih (fun q hq => h q (by simp [hq])), if_neg (by simp [h ph (by simp)]), add_zero]

section main2
variable (mode : Mode) (T P : ℝ) (L : List Phase)

/-- **C69.** The last row of the constraint matrix is the gradient of the given quantity, except that the entry for
temperature or pressure lacks what `lost` says. -/
theorem C69_constraint_gradient (comps : List ℕ) (hmode : mode ≠ .gibbs)
    (ok : SysOK mode T P (rows L).length 0 L (state mode T P L)) (i : ℕ) :
    HasDerivAt (fun h => Con mode T P (rows L).length L (shift (state mode T P L) i h))
      (conMatrix mode T P comps L comps.length i + if i = (rows L).length then lost mode T P L 0 else 0) 0 := by
  refine (all_first L 0 _ (all_ok L 0 _ ok).2 (by omega) i).congr_deriv ?_
  rw [conMatrix, dif_neg (lt_irrefl _), if_neg hmode, (conRow_list mode T P L ([], 0)).2]
  rcases lt_trichotomy i (rows L).length with h | h | h
  · rw [con_entries L 0 _ ok (match_state mode T P L) (at_state mode T P L) (by omega) i h, if_pos h, if_pos (Nat.zero_le _),
      if_neg h.ne, add_zero, Nat.sub_zero]
  · have := con_last L 0 _ ([], 0) (match_state mode T P L (N := (rows L).length)) (at_state mode T P L) (by omega)
    rw [if_neg (by omega), if_pos h, if_pos h, h]
    rwa [zero_add] at this
  · rw [if_neg (by omega), if_neg (by omega), if_neg (by omega), add_zero]
    have key : ∀ (L : List Phase) (k : ℕ) (y : ℕ → ℝ) (N : ℕ), k + (rows L).length ≤ N → ∀ i > N,
        sumD (conJet mode) mode T P N k L y i = 0 := by
      intro L
      induction L with
      | nil => exact fun _ _ _ _ _ _ => rfl
      | cons ph L ih =>
        intro k y N hN i hi
        simp only [rows, List.length_append, List.length_map] at hN
        rw [sumD, ih _ y N (by omega) i hi, Jet.D, dif_neg (by omega), if_neg (by omega), add_zero]
    exact key L 0 _ _ (by omega) i h

/-- **C69.** With at most one liquid, listed first, nothing is lost: the last row is the gradient. -/
theorem C69_constraint_row (comps : List ℕ) (hmode : mode ≠ .gibbs)
    (hl : ∀ ph ∈ L.tail, ph.liq = false)
    (ok : SysOK mode T P (rows L).length 0 L (state mode T P L)) (i : ℕ) :
    HasDerivAt (fun h => Con mode T P (rows L).length L (shift (state mode T P L) i h))
      (conMatrix mode T P comps L comps.length i) 0 := by
  refine (C69_constraint_gradient mode T P L comps hmode ok i).congr_deriv ?_
  have : lost mode T P L 0 = 0 := by
    cases L with
    | nil => rfl
    | cons ph L => rw [lost, lost_solids mode T P L hl, ite_self, add_zero]
  rw [this, ite_self, add_zero]

/-- **C69.** With two liquids and solids, the entry for temperature or pressure lacks the whole contribution of the first
liquid, so it is wrong unless that vanishes (a finding: the code assigns where it should add). -/
theorem C69_two_liquids (l1 l2 : Phase) (L : List Phase) (h1 : l1.liq = true) (h2 : l2.liq = true)
    (hl : ∀ ph ∈ L, ph.liq = false) :
    lost mode T P (l1 :: l2 :: L) 0 = conT mode T (l1.vals mode T P l1.m).p := by
  simp [lost, h1, h2, lost_solids mode T P L hl]

end main2

/-! ### The step -/

theorem getD_oxRow (i : ℕ) (L : List Phase) : (oxRow i L).length = (rows L).length := by
  induction L with
  | nil => rfl
  | cons ph L ih => simp [oxRow, rows, ih]

/-- The oxide content of amounts given row by row (specification). -/
def content (i : ℕ) : ℕ → List Phase → (ℕ → ℝ) → ℝ
  | _, [], _ => 0
  | k, ph :: L, y => ∑ j, ph.amounts k y j * ph.ox j i + content i (k + ph.slots.length) L y

theorem sum_amounts (ph : Phase) (k : ℕ) (y : ℕ → ℝ) (F : Fin ph.na → ℝ) :
    (ph.slots.map fun j => ph.amounts k y j * F j).sum = ∑ j, ph.amounts k y j * F j := by
  rw [← List.sum_toFinset _ (slots_nodup ph)]
  refine sum_subset (subset_univ _) fun j _ hj => ?_
  rw [amounts_off ph k y (by simpa using hj), zero_mul]

theorem oxRow_content (i : ℕ) (L : List Phase) : ∀ (k N : ℕ) (y : ℕ → ℝ), k + (rows L).length ≤ N →
    ∑ l ∈ range N, (if k ≤ l then (oxRow i L).getD (l - k) 0 else 0) * y l = content i k L y := by
  induction L with
  | nil => intro k N y _; simp [oxRow, content]
  | cons ph L ih =>
    intro k N y hN
    simp only [rows, List.length_append, List.length_map] at hN
    rw [content, ← ih (k + ph.slots.length) N y (by omega), ← sum_amounts, ← sum_slots ph (N := N) (by omega), ← sum_add_distrib]
    refine sum_congr rfl fun l _ => ?_
    rw [← add_mul]
    congr 1
    rw [oxRow]
    simp only [List.getD_eq_getElem?_getD]
    by_cases hk : k ≤ l
    · simp only [hk, true_and, if_true]
      by_cases hl : l - k < ph.slots.length
      · rw [dif_pos hl, if_neg (by omega), add_zero, List.getElem?_append_left (by simpa using hl), List.getElem?_map,
          List.getElem?_eq_getElem hl]
        simp
      · rw [dif_neg hl, if_pos (by omega), zero_add, List.getElem?_append_right (by simp; omega), List.length_map, Nat.sub_add_eq]
    · rw [dif_neg (by omega), if_neg hk, if_neg (by omega), zero_add]

theorem conMatrix_content (mode : Mode) (T P : ℝ) (comps : List ℕ) (L : List Phase) {k : ℕ} (hk : k < comps.length) {N : ℕ}
    (hN : (rows L).length ≤ N) (y : ℕ → ℝ) : ∑ l ∈ range N, conMatrix mode T P comps L k l * y l = content comps[k] 0 L y := by
  rw [← oxRow_content comps[k] L 0 N y (by omega)]
  refine sum_congr rfl fun l _ => ?_
  rw [conMatrix, dif_pos hk]
  simp

open Magma.Num.Householder Magma.Num.Constraint Magma.Num.Hfti Magma.Num in
/-- **C69.** At given temperature and pressure: if the solver reports full rank, the new amounts contain every oxide in the
given bulk amount, and they solve Newton's equation: along every reaction that keeps the oxides, the gradient of the Gibbs
energy plus its Hessian times the step vanishes. -/
theorem C69_newton (T P : ℝ) (L : List Phase) (comps : List ℕ) (bulk h0 g0 h0' : ℕ → ℝ) (p0 : ℕ → ℕ)
    (hrc : comps.length < (rows L).length)
    (hind : ∀ a : ℕ → ℝ, (∀ j < (rows L).length, ∑ i ∈ range comps.length, a i * conMatrix .gibbs T P comps L i j = 0) →
      ∀ i < comps.length, a i = 0)
    (ok : SysOK .gibbs T P (rows L).length 0 L (state .gibbs T P L)) :
    let N := (rows L).length
    let S := assemble .gibbs (hasNlCon .gibbs false) T P N 0 L Mats.zero
    let C := conMatrix .gibbs T P comps L
    let d := conVector .gibbs bulk comps
    let F := decomp comps.length N comps.length (C, h0)
    let r := quad (N - comps.length) (fun i j => Reduced.hat F comps.length N S.e (comps.length + i) (comps.length + j))
      (fun i => Reduced.rhs F comps.length N S.e S.b (fwd F.1 d comps.length) (comps.length + i)) g0 h0' p0
    let x := solve comps.length N C d (fun j => r.2.2 (j - comps.length)) h0
    r.1 = N - comps.length →
    (∀ k (hk : k < comps.length), content comps[k] 0 L x = bulk comps[k]) ∧
    ∀ nu : ℕ → ℝ, (∀ i ∈ comps, content i 0 L nu = 0) →
      ∑ k ∈ range N, nu k * (slope (Psi .gibbs T P N L) k (state .gibbs T P L)
        + ∑ j ∈ range N, S.e k j * (x j - state .gibbs T P L j)) = 0 := by
  intro N S C d F r x hr
  obtain ⟨h1, h2⟩ := C68_newton_step comps.length N hrc C S.e S.b d h0 g0 h0' p0 hind hr
  refine ⟨fun k hk => ?_, fun nu hnu => ?_⟩
  · have := h1 k hk
    rw [conMatrix_content .gibbs T P comps L hk le_rfl] at this
    rw [this]
    simp only [d, conVector, dif_pos hk, if_true]
  · have := h2 nu fun i hi => by
      rw [conMatrix_content .gibbs T P comps L hi le_rfl]
      exact hnu _ (List.getElem_mem _)
    rw [← this]
    refine sum_congr rfl fun k _ => ?_
    have hs : slope (Psi .gibbs T P N L) k (state .gibbs T P L) = ∑ l ∈ range N, S.e k l * state .gibbs T P L l - S.b k :=
      (C69_gibbs_gradient T P L ok k).deriv
    rw [hs]
    congr 1
    simp only [mul_sub, sum_sub_distrib]
    ring

open Magma.Num.Householder Magma.Num.Constraint Magma.Num.Hfti Magma.Num in
/-- **C69.** If the iteration stands still, the assemblage is in equilibrium: the affinity of every reaction among the end
members present vanishes. -/
theorem C69_equilibrium (T P : ℝ) (L : List Phase) (comps : List ℕ) (bulk h0 g0 h0' : ℕ → ℝ) (p0 : ℕ → ℕ)
    (hrc : comps.length < (rows L).length)
    (hind : ∀ a : ℕ → ℝ, (∀ j < (rows L).length, ∑ i ∈ range comps.length, a i * conMatrix .gibbs T P comps L i j = 0) →
      ∀ i < comps.length, a i = 0)
    (ok : SysOK .gibbs T P (rows L).length 0 L (state .gibbs T P L)) :
    let N := (rows L).length
    let S := assemble .gibbs (hasNlCon .gibbs false) T P N 0 L Mats.zero
    let C := conMatrix .gibbs T P comps L
    let d := conVector .gibbs bulk comps
    let F := decomp comps.length N comps.length (C, h0)
    let r := quad (N - comps.length) (fun i j => Reduced.hat F comps.length N S.e (comps.length + i) (comps.length + j))
      (fun i => Reduced.rhs F comps.length N S.e S.b (fwd F.1 d comps.length) (comps.length + i)) g0 h0' p0
    let x := solve comps.length N C d (fun j => r.2.2 (j - comps.length)) h0
    r.1 = N - comps.length → (∀ j < N, x j = state .gibbs T P L j) →
    ∀ nu : ℕ → ℝ, (∀ i ∈ comps, content i 0 L nu = 0) →
      ∑ k ∈ range N, nu k * slope (Psi .gibbs T P N L) k (state .gibbs T P L) = 0 := by
  intro N S C d F r x hr hx nu hnu
  rw [← (C69_newton T P L comps bulk h0 g0 h0' p0 hrc hind ok hr).2 nu hnu]
  refine sum_congr rfl fun k _ => ?_
  congr 1
  rw [sum_eq_zero (fun j hj => ?_), add_zero]
  exact mul_eq_zero_of_right _ (sub_eq_zero.mpr (hx j (mem_range.mp hj)))

open Magma.Num.Householder Magma.Num.Constraint Magma.Num.Hfti Magma.Num in
/-- **C69.** At given enthalpy, entropy or volume: if the solver reports full rank, the step keeps every oxide and, to first
order, the given quantity, and along every such direction the gradient of the potential plus the Hessian of the Lagrangian
times the step vanishes. -/
theorem C69_constrained_newton (mode : Mode) (hmode : mode ≠ .gibbs) (T P lambda : ℝ) (L : List Phase) (comps : List ℕ)
    (bulk h0 g0 h0' : ℕ → ℝ) (p0 : ℕ → ℕ) (hrc : comps.length < (rows L).length)
    (hl : ∀ ph ∈ L.tail, ph.liq = false)
    (hind : ∀ a : ℕ → ℝ, (∀ j < (rows L).length + 1, ∑ i ∈ range (comps.length + 1), a i * conMatrix mode T P comps L i j = 0) →
      ∀ i < comps.length + 1, a i = 0)
    (ok : SysOK mode T P (rows L).length 0 L (state mode T P L)) :
    let N := (rows L).length
    let S := assemble mode (hasNlCon mode false) T P N 0 L Mats.zero
    let E := corrected mode lambda S
    let C := conMatrix mode T P comps L
    let d := conVector mode bulk comps
    let q := comps.length + 1
    let F := decomp q (N + 1) q (C, h0)
    let r := quad (N + 1 - q) (fun i j => Reduced.hat F q (N + 1) E (q + i) (q + j))
      (fun i => Reduced.rhs F q (N + 1) E S.b (fwd F.1 d q) (q + i)) g0 h0' p0
    let x := solve q (N + 1) C d (fun j => r.2.2 (j - q)) h0
    let keeps := fun nu : ℕ → ℝ => (∀ i ∈ comps, content i 0 L nu = 0) ∧
      ∑ k ∈ range (N + 1), slope (Con mode T P N L) k (state mode T P L) * nu k = 0
    r.1 = N + 1 - q → keeps x ∧ ∀ nu, keeps nu →
      ∑ k ∈ range (N + 1), nu k * (slope (Psi mode T P N L) k (state mode T P L) + ∑ j ∈ range (N + 1), E k j * x j) = 0 := by
  intro N S E C d q F r x keeps hr
  have hc : ∀ k, slope (Con mode T P N L) k (state mode T P L) = C comps.length k := fun k =>
    (C69_constraint_row mode T P L comps hmode hl ok k).deriv
  obtain ⟨h1, h2⟩ := C68_newton_step q (N + 1) (by omega) C E S.b d h0 g0 h0' p0 hind hr
  refine ⟨⟨fun i hi => ?_, ?_⟩, fun nu hnu => ?_⟩
  · obtain ⟨k, hk, rfl⟩ := List.getElem_of_mem hi
    have := h1 k (by omega)
    rw [conMatrix_content mode T P comps L hk (by omega)] at this
    rw [this]
    simp only [d, conVector, dif_pos hk, if_neg hmode]
  · simp only [hc]
    rw [h1 comps.length (by omega)]
    simp [d, conVector]
  · have := h2 nu fun i hi => by
      by_cases h : i < comps.length
      · rw [conMatrix_content mode T P comps L h (by omega)]
        exact hnu.1 _ (List.getElem_mem _)
      · have : i = comps.length := by omega
        rw [this]
        have := hnu.2
        simp only [hc] at this
        exact this
    rw [← this]
    refine sum_congr rfl fun k _ => ?_
    have hs : slope (Psi mode T P N L) k (state mode T P L) = - S.b k := (C69_gradient mode T P L hmode ok k).deriv
    rw [hs]
    congr 1
    ring

end

end Magma.Engine.System
