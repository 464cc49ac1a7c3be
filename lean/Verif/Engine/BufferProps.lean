import Verif.Engine.Buffer

/-!
The Newton system under an oxygen buffer.
-/

namespace Magma.Engine.System

open Finset Filter Topology Magma.Thermo.Extensive

noncomputable section

/-! ### Specification -/

/-- The moles of oxygen as a function of the unknowns. -/
def oxygenOf (mode : Mode) (T P : ℝ) (N : ℕ) (L : List Phase) (y : ℕ → ℝ) : ℝ :=
  total (fun ph _ _ m => ∑ j, m j * ph.o2 j) mode T P N 0 L y

/-- The potential of oxygen in the first phase, a liquid, as a function of the unknowns. -/
def potL (mode : Mode) (T P : ℝ) (N : ℕ) {l : Phase} (X : Oxy l.na) (y : ℕ → ℝ) : ℝ :=
  X.mu (mode.at T P (y N)).1 (mode.at T P (y N)).2 (l.amounts 0 y)

/-- The potential of oxygen in the buffer as a function of the unknowns. -/
def potE (mode : Mode) (T P : ℝ) (N : ℕ) (E : Ext) (y : ℕ → ℝ) : ℝ := E.e (mode.at T P (y N)).1 (mode.at T P (y N)).2

/-- How far the liquid is from the buffer. -/
def gap (mode : Mode) (T P : ℝ) (N : ℕ) (E : Ext) {l : Phase} (X : Oxy l.na) (y : ℕ → ℝ) : ℝ :=
  potL mode T P N X y - potE mode T P N E y

/-- The potential that is minimised in a system open to oxygen: the potential of the system less that of its oxygen, taken from
the liquid at given temperature and pressure or volume, from the buffer at given enthalpy or entropy. -/
def Phi (mode : Mode) (T P : ℝ) (N : ℕ) (E : Ext) {l : Phase} (X : Oxy l.na) (L : List Phase) (y : ℕ → ℝ) : ℝ :=
  Psi mode T P N L y - oxygenOf mode T P N L y *
    match mode with
    | .gibbs | .isochoric => potL mode T P N X y
    | .isentropic => potE mode T P N E y
    | .isenthalpic => potE mode T P N E y / (mode.at T P (y N)).1

/-- The second partial derivative. -/
def slope2 (f : (ℕ → ℝ) → ℝ) (i j : ℕ) (y : ℕ → ℝ) : ℝ := slope (slope f i) j y

/-- The potential of oxygen in a liquid with the derivatives it says, at amounts `m`. -/
structure Oxy.Ok {l : Phase} (X : Oxy l.na) (T P : ℝ) (m : Fin l.na → ℝ) : Prop where
  mu_m : ∀ j ∈ l.slots, Partial (X.mu T P) m j (X.dm T P m j)
  dm_m : ∀ j ∈ l.slots, ∀ k ∈ l.slots, Partial (fun m => X.dm T P m j) m k (X.dmm T P m j k)
  mu_t : HasDerivAt (fun t => X.mu t P m) (X.dt T P m) T
  mu_p : HasDerivAt (fun p => X.mu T p m) (X.dp T P m) P
  dm_t : ∀ j ∈ l.slots, HasDerivAt (fun t => X.dm t P m j) (X.dmt T P m j) T
  dm_p : ∀ j ∈ l.slots, HasDerivAt (fun p => X.dm T p m j) (X.dmp T P m j) P
  dt_m : ∀ j ∈ l.slots, Partial (X.dt T P) m j (X.dmt T P m j)
  dp_m : ∀ j ∈ l.slots, Partial (X.dp T P) m j (X.dmp T P m j)
  dt_t : HasDerivAt (fun t => X.dt t P m) (X.dtt T P m) T
  dp_p : HasDerivAt (fun p => X.dp T p m) (X.dpp T P m) P

/-- The potential of the buffer has the derivatives it says. -/
structure Ext.Ok (E : Ext) (T P : ℝ) : Prop where
  e_t : HasDerivAt (fun t => E.e t P) (E.et T P) T
  et_t : HasDerivAt (fun t => E.et t P) (E.ett T P) T
  e_p : HasDerivAt (fun p => E.e T p) (E.ep T P) P
  ep_p : HasDerivAt (fun p => E.ep T p) (E.epp T P) P
  T0 : T ≠ 0

/-- The tables of the phases, of the liquid and of the buffer are consistent at the unknowns `y`. -/
structure BufOK (mode : Mode) (T P : ℝ) (N : ℕ) (E : Ext) {l : Phase} (X : Oxy l.na) (L : List Phase) (y : ℕ → ℝ) : Prop where
  sys : SysOK mode T P N 0 L y
  liq : X.Ok (mode.at T P (y N)).1 (mode.at T P (y N)).2 (l.amounts 0 y)
  ext : E.Ok (mode.at T P (y N)).1 (mode.at T P (y N)).2

/-! ### Two derivatives -/

/-- A function of the unknowns with its gradient near `y` and its Hessian at `y`. -/
structure Twice (F : (ℕ → ℝ) → ℝ) (D : (ℕ → ℝ) → ℕ → ℝ) (E : ℕ → ℕ → ℝ) (y : ℕ → ℝ) : Prop where
  first : ∀ᶠ z in 𝓝 y, ∀ i, HasDerivAt (fun h => F (shift z i h)) (D z i) 0
  second : ∀ i j, HasDerivAt (fun h => D (shift y j h) i) (E i j) 0

namespace Twice
variable {F G : (ℕ → ℝ) → ℝ} {D D' : (ℕ → ℝ) → ℕ → ℝ} {E E' : ℕ → ℕ → ℝ} {y : ℕ → ℝ}

theorem one (h : Twice F D E y) (i : ℕ) : HasDerivAt (fun h => F (shift y i h)) (D y i) 0 := h.first.self_of_nhds i

theorem hess (h : Twice F D E y) (i j : ℕ) : HasDerivAt (fun t => slope F i (shift y j t)) (E i j) 0 := by
  refine (h.second i j).congr_of_eventuallyEq ?_
  filter_upwards [near h.first j] with t ht
  exact (ht i).deriv

theorem eq2 (h : Twice F D E y) (i j : ℕ) : slope2 F i j y = E i j := (h.hess i j).deriv

theorem sub (h : Twice F D E y) (h' : Twice G D' E' y) :
    Twice (fun z => F z - G z) (fun z i => D z i - D' z i) (fun i j => E i j - E' i j) y where
  first := by
    filter_upwards [h.first, h'.first] with z a b i
    exact (a i).sub (b i)
  second i j := (h.second i j).sub (h'.second i j)

theorem smul (c : ℝ) (h : Twice F D E y) : Twice (fun z => c * F z) (fun z i => c * D z i) (fun i j => c * E i j) y where
  first := by
    filter_upwards [h.first] with z a i
    exact (a i).const_mul c
  second i j := (h.second i j).const_mul c

theorem mul (h : Twice F D E y) (h' : Twice G D' E' y) :
    Twice (fun z => F z * G z) (fun z i => D z i * G z + F z * D' z i)
      (fun i j => E i j * G y + D y i * D' y j + (D y j * D' y i + F y * E' i j)) y where
  first := by
    filter_upwards [h.first, h'.first] with z a b i
    refine ((a i).mul (b i)).congr_deriv ?_
    rw [shift_zero]
  second i j := by
    have a := ((h.second i j).mul (h'.one j)).add ((h.one j).mul (h'.second i j))
    refine a.congr_deriv ?_
    rw [shift_zero]

end Twice

/-- The derivatives of a sum over the phases. -/
theorem twice_all {J : (ph : Phase) → Jet ph} {mode : Mode} {T P : ℝ} {N : ℕ} {L : List Phase} {y : ℕ → ℝ}
    (ok : ∀ᶠ z in 𝓝 y, AllOk J mode T P N 0 L z) (hN : (rows L).length ≤ N) :
    Twice (total (fun ph => (J ph).f) mode T P N 0 L) (sumD J mode T P N 0 L) (sumE J mode T P N 0 L y) y where
  first := by
    filter_upwards [ok] with z hz i
    exact all_first L 0 z hz (by omega) i
  second i j := all_second L 0 y ok.self_of_nhds (by omega) i j

/-- The derivatives of a quantity of one phase. -/
theorem twice_one {ph : Phase} {J : Jet ph} {mode : Mode} {T P : ℝ} {N k : ℕ} {y : ℕ → ℝ}
    (ok : ∀ᶠ z in 𝓝 y, J.Ok mode (mode.at T P (z N)).1 (mode.at T P (z N)).2 (ph.amounts k z))
    (hN : k + ph.slots.length ≤ N) :
    Twice (fun z => J.f (mode.at T P (z N)).1 (mode.at T P (z N)).2 (ph.amounts k z)) (J.D mode T P N k)
      (J.E mode T P N k y) y where
  first := by
    filter_upwards [ok] with z hz i
    exact one_first hz hN i
  second i j := one_second ok.self_of_nhds hN i j

/-! ### Oxygen, liquid and buffer -/

/-- The oxygen of a phase. -/
def oxyJet (ph : Phase) : Jet ph where
  f _ _ m := ∑ j, m j * ph.o2 j
  g _ _ _ := ph.o2
  t _ _ _ := 0
  gg _ _ _ _ _ := 0
  gt _ _ _ _ := 0
  tt _ _ _ := 0

/-- The potential of oxygen in a liquid. -/
def muJet (mode : Mode) {l : Phase} (X : Oxy l.na) : Jet l where
  f := X.mu
  g := X.dm
  t T P m := match mode with
    | .gibbs => 0
    | .isenthalpic | .isentropic => X.dt T P m
    | .isochoric => X.dp T P m
  gg := X.dmm
  gt T P m j := match mode with
    | .gibbs => 0
    | .isenthalpic | .isentropic => X.dmt T P m j
    | .isochoric => X.dmp T P m j
  tt T P m := match mode with
    | .gibbs => 0
    | .isenthalpic | .isentropic => X.dtt T P m
    | .isochoric => X.dpp T P m

/-- The potential of oxygen in the buffer. -/
def extJet (mode : Mode) (E : Ext) (l : Phase) : Jet l where
  f T P _ := E.e T P
  g _ _ _ _ := 0
  t T P _ := match mode with
    | .gibbs => 0
    | .isenthalpic | .isentropic => E.et T P
    | .isochoric => E.ep T P
  gg _ _ _ _ _ := 0
  gt _ _ _ _ := 0
  tt T P _ := match mode with
    | .gibbs => 0
    | .isenthalpic | .isentropic => E.ett T P
    | .isochoric => E.epp T P

/-- The potential of oxygen in the buffer divided by the temperature. -/
def extTJet (E : Ext) (l : Phase) : Jet l where
  f T P _ := E.e T P / T
  g _ _ _ _ := 0
  t T P _ := -E.e T P / T ^ 2 + E.et T P / T
  gg _ _ _ _ _ := 0
  gt _ _ _ _ := 0
  tt T P _ := 2 * E.e T P / T ^ 3 - 2 * E.et T P / T ^ 2 + E.ett T P / T

theorem partial_const {n : ℕ} (c : ℝ) (m : Fin n → ℝ) (j : Fin n) : Partial (fun _ => c) m j 0 := hasDerivAt_const _ _

theorem oxy_ok (ph : Phase) (mode : Mode) (T P : ℝ) (m : Fin ph.na → ℝ) : (oxyJet ph).Ok mode T P m where
  first j _ := by
    change HasDerivAt (fun h => ∑ i, bump m j h i * ph.o2 i) (ph.o2 j) 0
    have e : (fun h => ∑ i, bump m j h i * ph.o2 i) = fun h => (∑ i, m i * ph.o2 i) + h * ph.o2 j := by
      funext h
      simp [bump, add_mul, sum_add_distrib]
    rw [e]
    simpa using ((hasDerivAt_id (0 : ℝ)).mul_const (ph.o2 j)).const_add (∑ i, m i * ph.o2 i)
  second _ _ _ _ := partial_const _ _ _
  theta := hasDerivAt_const _ _
  g_theta _ _ := hasDerivAt_const _ _
  t_first _ _ := partial_const _ _ _
  t_theta := hasDerivAt_const _ _

theorem oxy_all (mode : Mode) (T P : ℝ) (N : ℕ) (L : List Phase) : ∀ (k : ℕ) (y : ℕ → ℝ), AllOk oxyJet mode T P N k L y := by
  induction L with
  | nil => exact fun _ _ => trivial
  | cons ph L ih => exact fun k y => ⟨oxy_ok _ _ _ _ _, ih _ _⟩

theorem mu_ok {l : Phase} {X : Oxy l.na} {T P : ℝ} {m : Fin l.na → ℝ} (ok : X.Ok T P m) (mode : Mode) :
    (muJet mode X).Ok mode T P m := by
  cases mode
  · exact ⟨ok.mu_m, ok.dm_m, hasDerivAt_const _ (X.mu T P m), fun j _ => hasDerivAt_const _ (X.dm T P m j),
      fun _ _ => partial_const _ _ _, hasDerivAt_const _ (0 : ℝ)⟩
  · exact ⟨ok.mu_m, ok.dm_m, ok.mu_t, ok.dm_t, ok.dt_m, ok.dt_t⟩
  · exact ⟨ok.mu_m, ok.dm_m, ok.mu_t, ok.dm_t, ok.dt_m, ok.dt_t⟩
  · exact ⟨ok.mu_m, ok.dm_m, ok.mu_p, ok.dm_p, ok.dp_m, ok.dp_p⟩

theorem ext_ok {E : Ext} {T P : ℝ} (ok : E.Ok T P) (mode : Mode) (l : Phase) (m : Fin l.na → ℝ) :
    (extJet mode E l).Ok mode T P m := by
  have c : ∀ j ∈ l.slots, ∀ k ∈ l.slots, Partial (fun _ : Fin l.na → ℝ => (0 : ℝ)) m k 0 := fun _ _ _ _ => partial_const _ _ _
  cases mode
  · exact ⟨fun _ _ => partial_const _ _ _, c, hasDerivAt_const _ (E.e T P), fun _ _ => hasDerivAt_const _ _,
      fun _ _ => partial_const _ _ _, hasDerivAt_const _ (0 : ℝ)⟩
  · exact ⟨fun _ _ => partial_const _ _ _, c, ok.e_t, fun _ _ => hasDerivAt_const _ _, fun _ _ => partial_const _ _ _, ok.et_t⟩
  · exact ⟨fun _ _ => partial_const _ _ _, c, ok.e_t, fun _ _ => hasDerivAt_const _ _, fun _ _ => partial_const _ _ _, ok.et_t⟩
  · exact ⟨fun _ _ => partial_const _ _ _, c, ok.e_p, fun _ _ => hasDerivAt_const _ _, fun _ _ => partial_const _ _ _, ok.ep_p⟩

theorem extT_ok {E : Ext} {T P : ℝ} (ok : E.Ok T P) (l : Phase) (m : Fin l.na → ℝ) : (extTJet E l).Ok .isenthalpic T P m where
  first _ _ := partial_const _ _ _
  second _ _ _ _ := partial_const _ _ _
  theta := by
    change HasDerivAt (fun t => E.e t P / t) (-E.e T P / T ^ 2 + E.et T P / T) T
    refine (ok.e_t.div (hasDerivAt_id T) ok.T0).congr_deriv ?_
    have := ok.T0
    simp only [id]
    field_simp
    ring
  g_theta _ _ := hasDerivAt_const _ _
  t_first _ _ := partial_const _ _ _
  t_theta := by
    change HasDerivAt (fun t => -E.e t P / t ^ 2 + E.et t P / t) (2 * E.e T P / T ^ 3 - 2 * E.et T P / T ^ 2 + E.ett T P / T) T
    have h := ok.T0
    refine ((ok.e_t.neg.div (hasDerivAt_pow 2 T) (pow_ne_zero 2 h)).add (ok.et_t.div (hasDerivAt_id T) h)).congr_deriv ?_
    simp only [id, Pi.neg_apply]
    field_simp
    push_cast
    ring

/-- What the oxygen is multiplied with. -/
def potJet (mode : Mode) (E : Ext) {l : Phase} (X : Oxy l.na) : Jet l :=
  match mode with
  | .gibbs => muJet .gibbs X
  | .isochoric => muJet .isochoric X
  | .isentropic => extJet .isentropic E l
  | .isenthalpic => extTJet E l

theorem pot_ok {E : Ext} {l : Phase} {X : Oxy l.na} {T P : ℝ} {m : Fin l.na → ℝ} (hX : X.Ok T P m) (hE : E.Ok T P) (mode : Mode) :
    (potJet mode E X).Ok mode T P m := by
  cases mode
  · exact mu_ok hX .gibbs
  · exact extT_ok hE l m
  · exact ext_ok hE .isentropic l m
  · exact mu_ok hX .isochoric

theorem phi_eq (mode : Mode) (T P : ℝ) (N : ℕ) (E : Ext) {l : Phase} (X : Oxy l.na) (L : List Phase) :
    Phi mode T P N E X L = fun y => total (fun ph => (psiJet mode ph).f) mode T P N 0 L y
      - total (fun ph => (oxyJet ph).f) mode T P N 0 L y
        * (potJet mode E X).f (mode.at T P (y N)).1 (mode.at T P (y N)).2 (l.amounts 0 y) := by
  funext y
  cases mode <;> rfl

section twice
variable {mode : Mode} {T P : ℝ} {N : ℕ} {E : Ext} {l : Phase} {X : Oxy l.na} {L : List Phase} {y : ℕ → ℝ}
  (ok : ∀ᶠ z in 𝓝 y, BufOK mode T P N E X L z) (hN : (rows L).length ≤ N) (hl : l.slots.length ≤ N)
include ok

theorem twice_psi (hN : (rows L).length ≤ N) :
    Twice (Psi mode T P N L) (sumD (psiJet mode) mode T P N 0 L) (sumE (psiJet mode) mode T P N 0 L y) y :=
  twice_all (J := psiJet mode) (ok.mono fun z hz => (all_ok L 0 z hz.sys).1) hN

theorem twice_con (hN : (rows L).length ≤ N) :
    Twice (Con mode T P N L) (sumD (conJet mode) mode T P N 0 L) (sumE (conJet mode) mode T P N 0 L y) y :=
  twice_all (J := conJet mode) (ok.mono fun z hz => (all_ok L 0 z hz.sys).2) hN

theorem twice_oxy (hN : (rows L).length ≤ N) :
    Twice (oxygenOf mode T P N L) (sumD oxyJet mode T P N 0 L) (sumE oxyJet mode T P N 0 L y) y :=
  twice_all (J := oxyJet) (ok.mono fun z _ => oxy_all _ _ _ _ _ _ _) hN

theorem twice_liq (hl : l.slots.length ≤ N) :
    Twice (potL mode T P N X) ((muJet mode X).D mode T P N 0) ((muJet mode X).E mode T P N 0 y) y :=
  twice_one (J := muJet mode X) (ok.mono fun z hz => mu_ok hz.liq mode) (by omega)

theorem twice_ext (hl : l.slots.length ≤ N) :
    Twice (potE mode T P N E) ((extJet mode E l).D mode T P N 0) ((extJet mode E l).E mode T P N 0 y) y :=
  twice_one (J := extJet mode E l) (ok.mono fun z hz => ext_ok hz.ext mode l _) (by omega)

theorem twice_gap (hl : l.slots.length ≤ N) :
    Twice (gap mode T P N E X) (fun z i => (muJet mode X).D mode T P N 0 z i - (extJet mode E l).D mode T P N 0 z i)
      (fun i j => (muJet mode X).E mode T P N 0 y i j - (extJet mode E l).E mode T P N 0 y i j) y :=
  (twice_liq ok hl).sub (twice_ext ok hl)

theorem twice_phi (hN : (rows L).length ≤ N) (hl : l.slots.length ≤ N) :
    Twice (Phi mode T P N E X L) (fun z i => sumD (psiJet mode) mode T P N 0 L z i
        - (sumD oxyJet mode T P N 0 L z i
            * (potJet mode E X).f (mode.at T P (z N)).1 (mode.at T P (z N)).2 (l.amounts 0 z)
          + oxygenOf mode T P N L z * (potJet mode E X).D mode T P N 0 z i))
      (fun i j => sumE (psiJet mode) mode T P N 0 L y i j
        - (sumE oxyJet mode T P N 0 L y i j
            * (potJet mode E X).f (mode.at T P (y N)).1 (mode.at T P (y N)).2 (l.amounts 0 y)
          + sumD oxyJet mode T P N 0 L y i * (potJet mode E X).D mode T P N 0 y j
          + (sumD oxyJet mode T P N 0 L y j * (potJet mode E X).D mode T P N 0 y i
            + oxygenOf mode T P N L y * (potJet mode E X).E mode T P N 0 y i j))) y := by
  rw [phi_eq]
  exact (twice_psi ok hN).sub ((twice_oxy ok hN).mul
    (twice_one (J := potJet mode E X) (ok.mono fun z hz => pot_ok hz.liq hz.ext mode) (by omega)))

end twice

theorem oxy_E (mode : Mode) (T P : ℝ) (N : ℕ) (L : List Phase) (y : ℕ → ℝ) (i j : ℕ) :
    ∀ k, sumE oxyJet mode T P N k L y i j = 0 := by
  induction L with
  | nil => exact fun _ => rfl
  | cons ph L ih =>
    intro k
    rw [sumE, ih, add_zero, Jet.E]
    simp only [oxyJet]
    split_ifs <;> rfl

/-- The oxygen of the end member of a row. -/
theorem oxy_D (mode : Mode) (T P : ℝ) (N : ℕ) (L : List Phase) (y : ℕ → ℝ) (i : ℕ) :
    ∀ k, sumD oxyJet mode T P N k L y i = if k ≤ i then (o2Rows L).getD (i - k) 0 else 0 := by
  induction L with
  | nil => intro k; simp [sumD, o2Rows]
  | cons ph L ih =>
    intro k
    rw [sumD, ih, Jet.D, o2Rows]
    simp only [List.getD_eq_getElem?_getD, oxyJet, ite_self]
    by_cases hk : k ≤ i
    · simp only [hk, true_and, if_true]
      by_cases hl : i - k < ph.slots.length
      · rw [dif_pos hl, if_neg (by omega), add_zero, List.getElem?_append_left (by simpa using hl), List.getElem?_map,
          List.getElem?_eq_getElem hl]
        simp
      · rw [dif_neg hl, if_pos (by omega), zero_add, List.getElem?_append_right (by simp; omega), List.length_map, Nat.sub_add_eq]
    · rw [dif_neg (by omega), if_neg hk, if_neg (by omega), zero_add]

theorem o2Rows_length (L : List Phase) : (o2Rows L).length = (rows L).length := by
  induction L with
  | nil => rfl
  | cons ph L ih => simp [o2Rows, rows, ih]

theorem oxy_D_out (mode : Mode) (T P : ℝ) (N : ℕ) (L : List Phase) (y : ℕ → ℝ) {i k : ℕ}
    (h : ¬ (k ≤ i ∧ i < k + (rows L).length)) : sumD oxyJet mode T P N k L y i = 0 := by
  rw [oxy_D]
  split_ifs with hk
  · rw [List.getD_eq_getElem?_getD, List.getElem?_eq_none (by rw [o2Rows_length]; omega)]
    rfl
  · rfl

/-- The moles of oxygen. -/
theorem mO2T_eq (mode : Mode) (T P : ℝ) (N : ℕ) (L : List Phase) : ∀ (k : ℕ) (y : ℕ → ℝ), Match N k L y →
    total (fun ph _ _ m => ∑ j, m j * ph.o2 j) mode T P N k L y = mO2T L := by
  induction L with
  | nil => exact fun _ _ _ => rfl
  | cons ph L ih =>
    intro k y h
    rw [total, ih _ y h.2, h.1]
    simp only [mO2T, List.map_cons, List.sum_cons]
    congr 1
    exact sum_congr rfl fun j _ => mul_comm _ _

/-! ### The matrices of the code -/

/-- The factor of the oxygen of a solid in the gradient. -/
def factor (mode : Mode) (T P : ℝ) (E : Ext) (mu : ℝ) : ℝ :=
  match mode with
  | .isenthalpic => E.e T P / T
  | .isentropic => E.e T P
  | .isochoric | .gibbs => mu

theorem sum_solB (mode : Mode) (T P : ℝ) (N : ℕ) (E : Ext) (mu : ℝ) (i : ℕ) (y : ℕ → ℝ) (L : List Phase) : ∀ k,
    sumAt (solB mode T P E mu i) k L = sumD oxyJet mode T P N k L y i * factor mode T P E mu := by
  induction L with
  | nil => intro k; simp [sumAt, sumD]
  | cons ph L ih =>
    intro k
    rw [sumAt, sumD, ih, add_mul]
    congr 1
    unfold solB Jet.D
    simp only [oxyJet, ite_self]
    by_cases h : k ≤ i ∧ i - k < ph.slots.length
    · rw [dif_pos h, dif_pos h]
      cases mode <;> simp only [factor, mul_div_assoc]
    · rw [dif_neg h, dif_neg h, zero_mul]

theorem sum_solE (mode : Mode) (T P : ℝ) (N : ℕ) (E : Ext) {l : Phase} (X : Oxy l.na) (m : Fin l.na → ℝ) (i j : ℕ) (y : ℕ → ℝ)
    (L : List Phase) : ∀ k, k + (rows L).length ≤ N →
    sumAt (solE mode T P N E (X.dp T P m) i j) k L
      = -(sumD oxyJet mode T P N k L y i * (if j = N then (potJet mode E X).t T P m else 0)
        + sumD oxyJet mode T P N k L y j * (if i = N then (potJet mode E X).t T P m else 0)) := by
  induction L with
  | nil => intro k _; simp [sumAt, sumD]
  | cons ph L ih =>
    intro k hN
    simp only [rows, List.length_append, List.length_map] at hN
    rw [sumAt, sumD, sumD, ih _ (by omega)]
    have key : solE mode T P N E (X.dp T P m) i j k ph
        = -((oxyJet ph).D mode T P N k y i * (if j = N then (potJet mode E X).t T P m else 0)
          + (oxyJet ph).D mode T P N k y j * (if i = N then (potJet mode E X).t T P m else 0)) := by
      have t : ∀ o : ℝ, solT mode T P E (X.dp T P m) o = -(o * (potJet mode E X).t T P m) := by
        intro o
        cases mode <;> simp only [solT, potJet, muJet, extJet, extTJet] <;> ring
      unfold solE Jet.D
      simp only [oxyJet, ite_self, t]
      by_cases hi : k ≤ i ∧ i - k < ph.slots.length
      · have hiN : i ≠ N := by omega
        simp only [dif_pos hi, hiN, if_false, mul_zero, add_zero]
        split_ifs <;> simp
      · by_cases hj : k ≤ j ∧ j - k < ph.slots.length
        · have hjN : j ≠ N := by omega
          simp only [dif_neg hi, dif_pos hj, hjN, if_false, mul_zero, zero_add]
          split_ifs <;> simp
        · simp only [dif_neg hi, dif_neg hj, zero_mul, add_zero, neg_zero]
    rw [key]
    ring

section main
variable (mode : Mode) (T P : ℝ) (E : Ext) (X : (ph : Phase) → Oxy ph.na) (l : Phase) (sols : List Phase)

theorem one_liqB {N i : ℕ} {mT : ℝ} {y : ℕ → ℝ} (hv : mode.at T P (y N) = (T, P)) (hm : l.amounts 0 y = l.m) :
    liqB mode T P N mT E X i 0 l = (oxyJet l).D mode T P N 0 y i * (potJet mode E (X l)).f T P l.m
      + mT * (potJet mode E (X l)).D mode T P N 0 y i := by
  unfold liqB Jet.D
  simp only [hv, hm]
  by_cases h : 0 ≤ i ∧ i - 0 < l.slots.length
  · simp only [dif_pos h]
    cases mode <;> simp only [oxyJet, potJet, muJet, extJet, extTJet] <;> ring
  · simp only [dif_neg h]
    by_cases h' : i = N
    · simp only [if_pos h']
      cases mode <;> simp only [oxyJet, potJet, muJet, extJet, extTJet] <;> ring
    · simp only [if_neg h']
      ring

theorem factor_eq : factor mode T P E ((X l).mu T P l.m) = (potJet mode E (X l)).f T P l.m := by
  cases mode <;> rfl

/-- **C70.** With one liquid, the right-hand side assembled under a buffer is minus the gradient of the potential of the
system open to oxygen. -/
theorem C70_gradient
    (ok : BufOK mode T P (rows (l :: sols)).length E (X l) (l :: sols) (state mode T P (l :: sols))) (i : ℕ) :
    HasDerivAt (fun h => Phi mode T P (rows (l :: sols)).length E (X l) (l :: sols) (shift (state mode T P (l :: sols)) i h))
      (-(bufferedAssemble mode T P (rows (l :: sols)).length E X l [] sols).b i) 0 := by
  set L := l :: sols with hL
  set N := (rows L).length with hN
  set y := state mode T P L with hy
  have hv : mode.at T P (y N) = (T, P) := at_state mode T P L
  have hM : Match N 0 L y := match_state mode T P L
  have hm : l.amounts 0 y = l.m := hM.1
  have hl : l.slots.length ≤ N := by rw [hN, hL, rows]; simp
  have h1 := all_first (J := psiJet mode) L 0 y (all_ok L 0 _ ok.sys).1 (by omega) i
  have h2 := all_first (J := oxyJet) L 0 y (oxy_all mode T P N L 0 y) (by omega) i
  have h3 := one_first (J := potJet mode E (X l)) (k := 0) (pot_ok ok.liq ok.ext mode) (by omega) i
  rw [phi_eq]
  refine (h1.sub (h2.mul h3)).congr_deriv ?_
  rw [shift_zero, hv, hm]
  have hO : total (fun ph => (oxyJet ph).f) mode T P N 0 L y = mO2T L := mO2T_eq mode T P N L 0 y hM
  rw [hO]
  have hb : (bufferedAssemble mode T P N E X l [] sols).b i
      = (assemble mode (hasNlCon mode true) T P N 0 L Mats.zero).b i + (liqB mode T P N (mO2T L) E X i 0 l + 0)
        + sumAt (solB mode T P E ((X l).mu T P l.m) i) (rows [l]).length sols := rfl
  rw [hb, assemble_b (by simp [hasNlCon]) L 0 _ y hM hv, one_liqB mode T P E X l hv hm,
    sum_solB mode T P N E _ i y, factor_eq]
  have hs : (rows [l]).length = 0 + l.slots.length := by simp [rows]
  rw [hs, hL, sumD, sumD]
  simp only [Mats.zero]
  ring

/-- The entries between amounts that the code adds at given enthalpy or entropy as if the oxygen were that of the liquid. -/
def Mode.heat : Mode → Bool
  | .isenthalpic | .isentropic => true
  | _ => false

theorem one_E {N i j : ℕ} {mT : ℝ} {y : ℕ → ℝ} (hv : mode.at T P (y N) = (T, P)) (hm : l.amounts 0 y = l.m)
    (hN : (rows (l :: sols)).length = N) :
    liqE mode T P N mT E X (rows [l]).length (fun i => (o2Rows (l :: sols)).getD i 0) i j 0 l
      + sumAt (solE mode T P N E ((X l).dp T P l.m) i j) (rows [l]).length sols
      = -(sumD oxyJet mode T P N 0 (l :: sols) y i * (potJet mode E (X l)).D mode T P N 0 y j
          + (sumD oxyJet mode T P N 0 (l :: sols) y j * (potJet mode E (X l)).D mode T P N 0 y i
            + mT * (potJet mode E (X l)).E mode T P N 0 y i j))
        - (if mode.heat ∧ i < N ∧ j < N then
            sumD oxyJet mode T P N 0 (l :: sols) y i * (muJet mode (X l)).D mode T P N 0 y j
            + (sumD oxyJet mode T P N 0 (l :: sols) y j * (muJet mode (X l)).D mode T P N 0 y i
              + mT * (muJet mode (X l)).E mode T P N 0 y i j) else 0) := by
  have hs : (rows [l]).length = l.slots.length := by simp [rows]
  have hN' : l.slots.length + (rows sols).length = N := by rw [← hN, rows]; simp
  rw [hs, sum_solE mode T P N E (X l) l.m i j y sols _ hN'.le]
  have ho : ∀ i, (o2Rows (l :: sols)).getD i 0 = sumD oxyJet mode T P N 0 (l :: sols) y i := fun i => by
    rw [oxy_D]; simp
  simp only [ho]
  have hD : ∀ i, sumD oxyJet mode T P N 0 (l :: sols) y i
      = (oxyJet l).D mode T P N 0 y i + sumD oxyJet mode T P N l.slots.length sols y i := fun i => by
    rw [sumD, zero_add]
  simp only [hD]
  have h1 : ∀ i, i < l.slots.length → sumD oxyJet mode T P N l.slots.length sols y i = 0 := fun i h =>
    oxy_D_out _ _ _ _ _ _ (by omega)
  have h2 : ∀ i, N ≤ i → sumD oxyJet mode T P N l.slots.length sols y i = 0 := fun i h =>
    oxy_D_out _ _ _ _ _ _ (by omega)
  generalize sumD oxyJet mode T P N l.slots.length sols y = O at h1 h2
  unfold liqE Jet.D Jet.E
  simp only [hv, hm]
  by_cases hi : 0 ≤ i ∧ i - 0 < l.slots.length
  · have hi' : i < N := by omega
    have oi := h1 i (by omega)
    simp only [dif_pos hi, oi]
    by_cases hj : 0 ≤ j ∧ j - 0 < l.slots.length
    · have hj' : j < N := by omega
      have oj := h1 j (by omega)
      simp only [dif_pos hj, oj, hi', hj', hi'.ne, hj'.ne, if_false, and_true]
      cases mode <;> simp [potJet, muJet, extJet, extTJet, oxyJet, Mode.heat] <;> ring
    · simp only [dif_neg hj]
      by_cases hjN : j < N
      · have : l.slots.length ≤ j ∧ j < N := by omega
        simp only [this.1, hi', hjN, hi'.ne, hjN.ne, if_false, and_true, if_true]
        cases mode <;> simp [potJet, muJet, extJet, extTJet, oxyJet, Mode.heat] <;> ring
      · have : ¬ (l.slots.length ≤ j ∧ j < N) := by omega
        have oj := h2 j (by omega)
        simp only [if_neg this, oj, hjN, hi'.ne, if_false, and_false]
        by_cases hjN' : j = N
        · simp only [if_pos hjN']
          cases mode <;> simp [liqEt, potJet, muJet, extJet, extTJet, oxyJet] <;> ring
        · simp only [if_neg hjN']
          simp [oxyJet]
  · simp only [dif_neg hi]
    by_cases hj : 0 ≤ j ∧ j - 0 < l.slots.length
    · have hj' : j < N := by omega
      have oj := h1 j (by omega)
      simp only [dif_pos hj, oj]
      by_cases hiN : i < N
      · have : l.slots.length ≤ i ∧ i < N := by omega
        simp only [this.1, hj', hiN, hj'.ne, hiN.ne, if_false, and_true, if_true]
        cases mode <;> simp [potJet, muJet, extJet, extTJet, oxyJet, Mode.heat] <;> ring
      · have : ¬ (l.slots.length ≤ i ∧ i < N) := by omega
        have oi := h2 i (by omega)
        simp only [if_neg this, oi, hiN, hj'.ne, if_false, and_false, false_and]
        by_cases hiN' : i = N
        · simp only [if_pos hiN']
          cases mode <;> simp [liqEt, potJet, muJet, extJet, extTJet, oxyJet] <;> ring
        · simp only [if_neg hiN']
          simp [oxyJet]
    · simp only [dif_neg hj]
      by_cases hiN : i = N
      · have oi := h2 i (by omega)
        by_cases hjN : j = N
        · have oj := h2 j (by omega)
          subst hiN
          subst hjN
          simp only [lt_irrefl, false_and, and_false, if_false, oi, and_self, if_true]
          cases mode <;> simp [potJet, muJet, extJet, extTJet, oxyJet] <;> ring
        · subst hiN
          simp only [lt_irrefl, false_and, and_false, if_false, oi, if_true, hjN]
          simp [oxyJet]
      · by_cases hjN : j = N
        · subst hjN
          have oj := h2 j le_rfl
          simp only [lt_irrefl, and_false, if_false, oj, if_true, hiN, false_and]
          simp [oxyJet]
        · simp only [hiN, hjN, if_false, false_and]
          simp [oxyJet]

/-- **C70.** With one liquid, the matrix assembled under a buffer is the Hessian of the potential of the system open to oxygen,
except that at given enthalpy or entropy the entries between amounts are less by those of the oxygen times its potential in
the liquid (a finding: the function the matrix belongs to is not the one the right-hand side belongs to). -/
theorem C70_hessian (ok : ∀ᶠ z in 𝓝 (state mode T P (l :: sols)),
      BufOK mode T P (rows (l :: sols)).length E (X l) (l :: sols) z) (i j : ℕ) :
    HasDerivAt (fun h => slope (Phi mode T P (rows (l :: sols)).length E (X l) (l :: sols)) i
        (shift (state mode T P (l :: sols)) j h))
      ((bufferedAssemble mode T P (rows (l :: sols)).length E X l [] sols).e i j
        + if mode.heat ∧ i < (rows (l :: sols)).length ∧ j < (rows (l :: sols)).length then
            slope2 (fun y => oxygenOf mode T P (rows (l :: sols)).length (l :: sols) y
              * potL mode T P (rows (l :: sols)).length (X l) y) i j (state mode T P (l :: sols))
          else 0) 0 := by
  set L := l :: sols with hL
  set N := (rows L).length with hN
  set y := state mode T P L with hy
  have hv : mode.at T P (y N) = (T, P) := at_state mode T P L
  have hM : Match N 0 L y := match_state mode T P L
  have hm : l.amounts 0 y = l.m := hM.1
  have hl : l.slots.length ≤ N := by rw [hN, hL, rows]; simp
  refine ((twice_phi ok le_rfl hl).hess i j).congr_deriv ?_
  rw [((twice_oxy ok le_rfl).mul (twice_liq ok hl)).eq2 i j, oxy_E]
  have hO : oxygenOf mode T P N L y = mO2T L := mO2T_eq mode T P N L 0 y hM
  have he : (bufferedAssemble mode T P N E X l [] sols).e i j
      = (assemble mode (hasNlCon mode true) T P N 0 L Mats.zero).e i j
        + (liqE mode T P N (mO2T L) E X (rows [l]).length (fun i => (o2Rows L).getD i 0) i j 0 l + 0)
        + sumAt (solE mode T P N E ((X l).dp T P l.m) i j) (rows [l]).length sols := rfl
  rw [he, assemble_e L 0 _ y hM hv, hO, add_zero, add_assoc (Mats.zero.e i j + _), one_E mode T P E X l sols hv hm hN.symm, ← hL]
  simp only [Mats.zero, zero_mul, zero_add]
  split_ifs <;> ring

/-- **C70.** At given temperature and pressure or volume, with one liquid, the matrix is the Hessian. -/
theorem C70_hessian_gibbs (hmode : mode = .gibbs ∨ mode = .isochoric) (ok : ∀ᶠ z in 𝓝 (state mode T P (l :: sols)),
      BufOK mode T P (rows (l :: sols)).length E (X l) (l :: sols) z) (i j : ℕ) :
    HasDerivAt (fun h => slope (Phi mode T P (rows (l :: sols)).length E (X l) (l :: sols)) i
        (shift (state mode T P (l :: sols)) j h))
      ((bufferedAssemble mode T P (rows (l :: sols)).length E X l [] sols).e i j) 0 := by
  have := C70_hessian mode T P E X l sols ok i j
  rwa [if_neg (by rcases hmode with h | h <;> simp [h, Mode.heat]), add_zero] at this

/-- **C70.** The matrix kept for the multiplier of the buffer is minus the Hessian of the distance from the buffer. -/
theorem C70_constraint_hessian (ok : ∀ᶠ z in 𝓝 (state mode T P (l :: sols)),
      BufOK mode T P (rows (l :: sols)).length E (X l) (l :: sols) z) (i j : ℕ) :
    HasDerivAt (fun h => slope (gap mode T P (rows (l :: sols)).length E (X l)) i (shift (state mode T P (l :: sols)) j h))
      (-(bufferedAssemble mode T P (rows (l :: sols)).length E X l [] sols).o 0 i j) 0 := by
  set L := l :: sols with hL
  set N := (rows L).length with hN
  set y := state mode T P L with hy
  have hv : mode.at T P (y N) = (T, P) := at_state mode T P L
  have hM : Match N 0 L y := match_state mode T P L
  have hm : l.amounts 0 y = l.m := hM.1
  have hl : l.slots.length ≤ N := by rw [hN, hL, rows]; simp
  refine ((twice_gap ok hl).hess i j).congr_deriv ?_
  have ho : (bufferedAssemble mode T P N E X l [] sols).o 0 i j = liqC mode T P N E X i j 0 l := rfl
  rw [ho]
  unfold liqC Jet.E
  simp only [hv, hm]
  split_ifs <;> cases mode <;> simp [muJet, extJet] <;> ring

/-- **C70.** With the multipliers of the buffer and of the given quantity, the matrix is the Hessian of the Lagrangian, again
less that term at given enthalpy or entropy. -/
theorem C70_lagrangian (lambdaO lambda : ℝ) (ok : ∀ᶠ z in 𝓝 (state mode T P (l :: sols)),
      BufOK mode T P (rows (l :: sols)).length E (X l) (l :: sols) z) (i j : ℕ) :
    HasDerivAt (fun h => slope (fun y => Phi mode T P (rows (l :: sols)).length E (X l) (l :: sols) y
        - lambdaO * gap mode T P (rows (l :: sols)).length E (X l) y
        - (if mode = .gibbs then 0 else lambda) * Con mode T P (rows (l :: sols)).length (l :: sols) y) i
        (shift (state mode T P (l :: sols)) j h))
      ((bufferedAssemble mode T P (rows (l :: sols)).length E X l [] sols).corrected mode 1 (fun _ => lambdaO) lambda i j
        + if mode.heat ∧ i < (rows (l :: sols)).length ∧ j < (rows (l :: sols)).length then
            slope2 (fun y => oxygenOf mode T P (rows (l :: sols)).length (l :: sols) y
              * potL mode T P (rows (l :: sols)).length (X l) y) i j (state mode T P (l :: sols))
          else 0) 0 := by
  have hl : l.slots.length ≤ (rows (l :: sols)).length := by rw [rows]; simp
  have t := ((twice_phi ok le_rfl hl).sub ((twice_gap ok hl).smul lambdaO)).sub
    ((twice_con ok le_rfl).smul (if mode = .gibbs then 0 else lambda))
  refine (t.hess i j).congr_deriv ?_
  have h1 := ((twice_phi ok le_rfl hl).hess i j).unique (C70_hessian mode T P E X l sols ok i j)
  have h2 := ((twice_gap ok hl).hess i j).unique (C70_constraint_hessian mode T P E X l sols ok i j)
  have h3 := ((twice_con ok le_rfl).hess i j).unique
    (C69_constraint_hessian mode T P (l :: sols) (ok.mono fun z hz => hz.sys) i j)
  rw [h1, h2, h3]
  have hc : (bufferedAssemble mode T P (rows (l :: sols)).length E X l [] sols).c i j
      = (assemble mode (hasNlCon mode false) T P (rows (l :: sols)).length 0 (l :: sols) Mats.zero).c i j := by
    have : (bufferedAssemble mode T P (rows (l :: sols)).length E X l [] sols).c i j
        = (assemble mode (hasNlCon mode true) T P (rows (l :: sols)).length 0 (l :: sols) Mats.zero).c i j := rfl
    rw [this, assemble_c _ 0 _ _ (match_state mode T P (l :: sols)) (at_state mode T P (l :: sols)),
      assemble_c _ 0 _ _ (match_state mode T P (l :: sols)) (at_state mode T P (l :: sols))]
  rw [← hc]
  simp only [OMats.corrected, corrected, sum_range_one]
  split_ifs <;> ring

end main

end

end Magma.Engine.System
