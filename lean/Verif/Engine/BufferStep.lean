import Verif.Engine.BufferProps
import Verif.Thermo.StdState

/-!
The constraints and the Newton step under an oxygen buffer.
-/

namespace Magma.Engine.System

open Finset Filter Topology Magma.Thermo.Extensive Magma.Thermo.Buffers
open Verif.Thermo.StdState (Std)

noncomputable section

/-! ### The row of the buffer -/

/-- **C70.** The row of the constraint matrix for the buffer is the gradient of the distance from the buffer, provided that the
stored oxygen fugacity is that of the buffer at the present temperature and pressure. -/
theorem C70_constraint_row (mode : Mode) (T P delta fo2 : ℝ) (b : Buffer) (o : ℝ → ℝ → Std) (X : (ph : Phase) → Oxy ph.na)
    (l : Phase) (sols : List Phase) (hf : fo2 = log10fo2 delta T P b)
    (ok : BufOK mode T P (rows (l :: sols)).length (Ext.of o delta b) ((X l).std o) (l :: sols) (state mode T P (l :: sols)))
    (i : ℕ) :
    HasDerivAt (fun h => gap mode T P (rows (l :: sols)).length (Ext.of o delta b) ((X l).std o)
        (shift (state mode T P (l :: sols)) i h))
      (bufferRow mode T P (rows (l :: sols)).length fo2 b X 0 l i) 0 := by
  set L := l :: sols with hL
  set N := (rows L).length with hN
  set y := state mode T P L with hy
  have hv : mode.at T P (y N) = (T, P) := at_state mode T P L
  have hM : Match N 0 L y := match_state mode T P L
  have hm : l.amounts 0 y = l.m := hM.1
  have hl : l.slots.length ≤ N := by rw [hN, hL, rows]; simp
  have h1 := one_first (J := muJet mode ((X l).std o)) (k := 0) (mu_ok ok.liq mode) (by omega) i
  have h2 := one_first (J := extJet mode (Ext.of o delta b) l) (k := 0) (ext_ok ok.ext mode l _) (by omega) i
  refine (h1.sub h2).congr_deriv ?_
  unfold Jet.D bufferRow
  simp only [hv, hm, hf]
  split_ifs <;> cases mode <;> simp [muJet, extJet, Oxy.std, Ext.of] <;> ring

/-! ### The rows of the oxides -/

/-- A row times the unknowns. -/
def dot (N : ℕ) (r : List ℝ) (y : ℕ → ℝ) : ℝ := ∑ j ∈ range N, r.getD j 0 * y j

theorem dot_oxRow (i : ℕ) (L : List Phase) {N : ℕ} (hN : (rows L).length ≤ N) (y : ℕ → ℝ) :
    dot N (oxRow i L) y = content i 0 L y := by
  rw [← oxRow_content i L 0 N y (by omega)]
  simp [dot]

theorem dot_twice (i : ℕ) (L : List Phase) (N : ℕ) (y : ℕ → ℝ) :
    dot N ((oxRow i L).map (· * 2)) y = 2 * dot N (oxRow i L) y := by
  unfold dot
  rw [mul_sum]
  refine sum_congr rfl fun j _ => ?_
  simp only [List.getD_eq_getElem?_getD, List.getElem?_map]
  cases (oxRow i L)[j]? <;> simp
  ring

theorem dot_add (N : ℕ) (a b : List ℝ) (h : a.length = b.length) (y : ℕ → ℝ) :
    dot N (List.zipWith (· + ·) a b) y = dot N a y + dot N b y := by
  unfold dot
  rw [← sum_add_distrib]
  refine sum_congr rfl fun j _ => ?_
  simp only [List.getD_eq_getElem?_getD, List.getElem?_zipWith]
  by_cases hj : j < a.length
  · rw [List.getElem?_eq_getElem hj, List.getElem?_eq_getElem (h ▸ hj)]
    simp [add_mul]
  · rw [List.getElem?_eq_none (by omega), List.getElem?_eq_none (by omega)]
    simp

section iron
variable (fe3 fe2 : ℕ) (L : List Phase)

/-- The row of an oxide as it is first written. -/
def firstRow (i : ℕ) : List ℝ := if i = fe3 then (oxRow i L).map (· * 2) else oxRow i L

theorem firstRow_length (i : ℕ) : (firstRow fe3 L i).length = (rows L).length := by
  unfold firstRow
  split_ifs <;> simp [getD_oxRow]

theorem iron_other (cs : List ℕ) (h1 : min fe3 fe2 ∉ cs) (h2 : max fe3 fe2 ∉ cs) :
    ∀ rest a, ironRows fe3 fe2 L (cs ++ rest) a = ironRows fe3 fe2 L rest (a.1 ++ cs.map (firstRow fe3 L), a.2) := by
  induction cs with
  | nil => intro rest a; simp
  | cons i cs ih =>
    intro rest a
    simp only [List.mem_cons, not_or] at h1 h2
    rw [List.cons_append, ironRows, if_neg (Ne.symm h1.1), if_neg (Ne.symm h2.1), ih h1.2 h2.2]
    simp [firstRow]

theorem modify_mid {α : Type*} (A B : List α) (x : α) (f : α → α) : (A ++ x :: B).modify A.length f = A ++ f x :: B := by
  induction A with
  | nil => rfl
  | cons z A ih => simp only [List.cons_append, List.length_cons, List.modify_succ_cons, ih]

theorem iron_both (a b c : List ℕ) (ha1 : min fe3 fe2 ∉ a) (ha2 : max fe3 fe2 ∉ a) (hb1 : min fe3 fe2 ∉ b) (hb2 : max fe3 fe2 ∉ b)
    (hc1 : min fe3 fe2 ∉ c) (hc2 : max fe3 fe2 ∉ c) (hne : fe3 ≠ fe2) :
    ironRows fe3 fe2 L (a ++ min fe3 fe2 :: (b ++ max fe3 fe2 :: c)) ([], none)
      = some (a.map (firstRow fe3 L) ++ List.zipWith (· + ·) (firstRow fe3 L (min fe3 fe2)) (firstRow fe3 L (max fe3 fe2))
          :: (b.map (firstRow fe3 L) ++ c.map (firstRow fe3 L))) := by
  have hmm : max fe3 fe2 ≠ min fe3 fe2 := by omega
  rw [iron_other fe3 fe2 L a ha1 ha2, ironRows, if_pos rfl, iron_other fe3 fe2 L b hb1 hb2, ironRows, if_neg hmm, if_pos rfl]
  have := iron_other fe3 fe2 L c hc1 hc2 []
  rw [List.append_nil] at this
  simp only [this, ironRows]
  congr 1
  have hA : ((([] : List (List ℝ)) ++ a.map (firstRow fe3 L)).length) = (a.map (firstRow fe3 L)).length := by simp
  have e : ∀ x : List ℝ, ([] : List (List ℝ)) ++ a.map (firstRow fe3 L) ++ [x] ++ b.map (firstRow fe3 L)
      = a.map (firstRow fe3 L) ++ x :: b.map (firstRow fe3 L) := by intro x; simp
  rw [hA, e, modify_mid, List.append_assoc, List.cons_append]
  rfl

theorem iron_split (comps : List ℕ) (hs : comps.Pairwise (· < ·)) (h1 : min fe3 fe2 ∈ comps) (h2 : max fe3 fe2 ∈ comps)
    (hne : fe3 ≠ fe2) : ∃ a b c, comps = a ++ min fe3 fe2 :: (b ++ max fe3 fe2 :: c) ∧ min fe3 fe2 ∉ a ∧ max fe3 fe2 ∉ a ∧
      min fe3 fe2 ∉ b ∧ max fe3 fe2 ∉ b ∧ min fe3 fe2 ∉ c ∧ max fe3 fe2 ∉ c := by
  obtain ⟨a, t, rfl⟩ := List.append_of_mem h1
  rw [List.pairwise_append] at hs
  have hp := List.pairwise_cons.mp hs.2.1
  have hmm : min fe3 fe2 < max fe3 fe2 := by omega
  have ha : ∀ x ∈ a, x < min fe3 fe2 := fun x hx => hs.2.2 x hx _ (by simp)
  have ht : max fe3 fe2 ∈ t := by
    rcases List.mem_append.mp h2 with h | h
    · have := ha _ h; omega
    · rcases List.mem_cons.mp h with h | h
      · omega
      · exact h
  obtain ⟨b, c, rfl⟩ := List.append_of_mem ht
  have hq := List.pairwise_append.mp hp.2
  have hc := List.pairwise_cons.mp hq.2.1
  refine ⟨a, b, c, rfl, fun h => ?_, fun h => ?_, fun h => ?_, fun h => ?_, fun h => ?_, fun h => ?_⟩
  · have := ha _ h; omega
  · have := ha _ h; omega
  · have := hp.1 _ (List.mem_append_left _ h); omega
  · have := hq.2.2 _ h _ (List.mem_cons_self ..); omega
  · have := hc.1 _ h; omega
  · have := hc.1 _ h; omega

/-- **C70.** With both iron oxides in the bulk composition there is one row less than oxides, and the rows say: every other
oxide is kept, and so is the iron, whether ferrous or ferric. -/
theorem C70_iron_rows (comps : List ℕ) (hs : comps.Pairwise (· < ·)) (h2 : fe2 ∈ comps) (h3 : fe3 ∈ comps) (hne : fe3 ≠ fe2)
    (N : ℕ) (hN : (rows L).length ≤ N) :
    ∃ R, ironRows fe3 fe2 L comps ([], none) = some R ∧ R.length + 1 = comps.length ∧
      ∀ y : ℕ → ℝ, (∀ r ∈ R, dot N r y = 0) ↔
        (∀ i ∈ comps, i ≠ fe2 → i ≠ fe3 → content i 0 L y = 0) ∧ content fe2 0 L y + 2 * content fe3 0 L y = 0 := by
  obtain ⟨a, b, c, rfl, ha1, ha2, hb1, hb2, hc1, hc2⟩ := iron_split fe3 fe2 comps hs
    (by rcases min_choice fe3 fe2 with h | h <;> rw [h] <;> assumption)
    (by rcases max_choice fe3 fe2 with h | h <;> rw [h] <;> assumption) hne
  refine ⟨_, iron_both fe3 fe2 L a b c ha1 ha2 hb1 hb2 hc1 hc2 hne, by simp; omega, fun y => ?_⟩
  have mem : ∀ {q : List ℕ}, min fe3 fe2 ∉ q → max fe3 fe2 ∉ q → ∀ i ∈ q, i ≠ fe2 ∧ i ≠ fe3 := by
    intro q h1 h2 i hi
    constructor
    · rintro rfl
      rcases le_total fe3 i with h | h
      · exact h2 (by rwa [max_eq_right h])
      · exact h1 (by rwa [min_eq_right h])
    · rintro rfl
      rcases le_total i fe2 with h | h
      · exact h1 (by rwa [min_eq_left h])
      · exact h2 (by rwa [max_eq_left h])
  have one : ∀ i, i ≠ fe3 → dot N (firstRow fe3 L i) y = content i 0 L y := fun i hi => by
    rw [firstRow, if_neg hi, dot_oxRow i L hN]
  have iron : dot N (List.zipWith (· + ·) (firstRow fe3 L (min fe3 fe2)) (firstRow fe3 L (max fe3 fe2))) y
      = content fe2 0 L y + 2 * content fe3 0 L y := by
    rw [dot_add _ _ _ (by rw [firstRow_length, firstRow_length])]
    have e3 : dot N (firstRow fe3 L fe3) y = 2 * content fe3 0 L y := by
      rw [firstRow, if_pos rfl, dot_twice, dot_oxRow fe3 L hN]
    have e2 := one fe2 hne.symm
    rcases le_total fe3 fe2 with h | h
    · rw [min_eq_left h, max_eq_right h, e3, e2]; ring
    · rw [min_eq_right h, max_eq_left h, e3, e2]
  have ha := mem ha1 ha2
  have hb := mem hb1 hb2
  have hc := mem hc1 hc2
  constructor
  · intro h
    refine ⟨fun i hi hi2 hi3 => ?_, ?_⟩
    · rw [← one i hi3]
      refine h _ ?_
      simp only [List.mem_append, List.mem_cons, List.mem_map] at hi ⊢
      rcases hi with hi | hi | hi | hi | hi
      · exact Or.inl ⟨i, hi, rfl⟩
      · exact absurd hi (by rcases min_choice fe3 fe2 with e | e <;> rw [e] <;> assumption)
      · exact Or.inr (Or.inr (Or.inl ⟨i, hi, rfl⟩))
      · exact absurd hi (by rcases max_choice fe3 fe2 with e | e <;> rw [e] <;> assumption)
      · exact Or.inr (Or.inr (Or.inr ⟨i, hi, rfl⟩))
    · rw [← iron]
      exact h _ (by simp)
  · rintro ⟨h, hi⟩ r hr
    simp only [List.mem_append, List.mem_cons, List.mem_map] at hr
    rcases hr with ⟨i, hi', rfl⟩ | rfl | ⟨i, hi', rfl⟩ | ⟨i, hi', rfl⟩
    · rw [one i (ha i hi').2]
      exact h i (by simp [hi']) (ha i hi').1 (ha i hi').2
    · rw [iron, hi]
    · rw [one i (hb i hi').2]
      exact h i (by simp [hi']) (hb i hi').1 (hb i hi').2
    · rw [one i (hc i hi').2]
      exact h i (by simp [hi']) (hc i hi').1 (hc i hi').2

/-- **C70.** Without one of the iron oxides the code writes beyond the rows it has allocated: a row after the last or, if only
the later of the two is present, the row before the first (`none`). -/
theorem C70_rows_overflow (mode : Mode) (comps : List ℕ) (hs : comps.Pairwise (· < ·)) (hne : fe3 ≠ fe2)
    (h : ¬ (fe2 ∈ comps ∧ fe3 ∈ comps)) (nliq : ℕ) (hl : 0 < nliq) :
    ironRows fe3 fe2 L comps ([], none) = none ∨
    ∃ R, ironRows fe3 fe2 L comps ([], none) = some R ∧ rowsWritten mode R nliq = rowsAllocated mode comps nliq + 1 := by
  have cnt : ∀ R : List (List ℝ), R.length = comps.length → rowsWritten mode R nliq = rowsAllocated mode comps nliq + 1 := by
    intro R hR
    unfold rowsWritten rowsAllocated
    rw [hR]
    split_ifs <;> omega
  by_cases h1 : min fe3 fe2 ∈ comps
  · right
    have h2 : max fe3 fe2 ∉ comps := by
      intro h2
      refine h ⟨?_, ?_⟩ <;>
      · rcases le_total fe3 fe2 with e | e
        · rw [min_eq_left e] at h1; rw [max_eq_right e] at h2; assumption
        · rw [min_eq_right e] at h1; rw [max_eq_left e] at h2; assumption
    obtain ⟨a, t, rfl⟩ := List.append_of_mem h1
    have hp := List.pairwise_append.mp hs
    have ha : min fe3 fe2 ∉ a := fun hx => lt_irrefl _ (hp.2.2 _ hx _ (by simp))
    have ht : min fe3 fe2 ∉ t := fun hx => lt_irrefl _ ((List.pairwise_cons.mp hp.2.1).1 _ hx)
    simp only [List.mem_append, List.mem_cons, not_or] at h2
    refine ⟨a.map (firstRow fe3 L) ++ firstRow fe3 L (min fe3 fe2) :: t.map (firstRow fe3 L), ?_, cnt _ (by simp)⟩
    rw [iron_other fe3 fe2 L a ha h2.1, ironRows, if_pos rfl]
    have := iron_other fe3 fe2 L t ht h2.2.2 []
    rw [List.append_nil] at this
    rw [this, ironRows]
    simp [firstRow]
  · by_cases h2 : max fe3 fe2 ∈ comps
    · left
      obtain ⟨a, t, rfl⟩ := List.append_of_mem h2
      have hp := List.pairwise_append.mp hs
      have ha : max fe3 fe2 ∉ a := fun hx => lt_irrefl _ (hp.2.2 _ hx _ (by simp))
      simp only [List.mem_append, List.mem_cons, not_or] at h1
      rw [iron_other fe3 fe2 L a h1.1 ha, ironRows, if_neg (by omega), if_pos rfl]
    · right
      refine ⟨comps.map (firstRow fe3 L), ?_, cnt _ (by simp)⟩
      have := iron_other fe3 fe2 L comps h1 h2 []
      rw [List.append_nil] at this
      rw [this, ironRows, List.nil_append]

/-- **C70.** With both iron oxides the rows written are those allocated. -/
theorem C70_rows_fit (mode : Mode) (comps : List ℕ) (hs : comps.Pairwise (· < ·)) (hne : fe3 ≠ fe2)
    (h2 : fe2 ∈ comps) (h3 : fe3 ∈ comps) (nliq : ℕ) (hl : 0 < nliq) :
    ∃ R, ironRows fe3 fe2 L comps ([], none) = some R ∧ rowsWritten mode R nliq = rowsAllocated mode comps nliq := by
  obtain ⟨R, hR, hlen, -⟩ := C70_iron_rows fe3 fe2 L comps hs h2 h3 hne _ le_rfl
  refine ⟨R, hR, ?_⟩
  unfold rowsWritten rowsAllocated
  split_ifs <;> omega

end iron

/-! ### The step -/

/-- The directions that keep the oxides (iron as a whole), and to first order the distance from the buffer and the given
quantity. -/
def Keeps (mode : Mode) (T P : ℝ) (E : Ext) {l : Phase} (X : Oxy l.na) (fe3 fe2 : ℕ) (comps : List ℕ) (L : List Phase) (M : ℕ)
    (nu : ℕ → ℝ) : Prop :=
  (∀ i ∈ comps, i ≠ fe2 → i ≠ fe3 → content i 0 L nu = 0) ∧ content fe2 0 L nu + 2 * content fe3 0 L nu = 0 ∧
  ∑ k ∈ range M, slope (gap mode T P (rows L).length E X) k (state mode T P L) * nu k = 0 ∧
  (mode ≠ .gibbs → ∑ k ∈ range M, slope (Con mode T P (rows L).length L) k (state mode T P L) * nu k = 0)

section step
variable (mode : Mode) (T P delta fo2 lambdaO lambda : ℝ) (b : Buffer) (o : ℝ → ℝ → Std) (X : (ph : Phase) → Oxy ph.na)
  (l : Phase) (sols : List Phase) (fe3 fe2 : ℕ) (comps : List ℕ)

open Magma.Num.Householder Magma.Num.Constraint Magma.Num.Hfti Magma.Num in
/-- **C70.** With one liquid and both iron oxides: if the solver reports full rank, the step keeps the oxides, with iron free to
change its valence, and to first order the buffer and the given quantity; and along every such direction the gradient of the
potential of the open system plus the matrix times the step vanishes. -/
theorem C70_newton (h0 g0 h0' : ℕ → ℝ) (p0 : ℕ → ℕ) (hs : comps.Pairwise (· < ·)) (h2 : fe2 ∈ comps) (h3 : fe3 ∈ comps)
    (hne : fe3 ≠ fe2) (hsol : ∀ ph ∈ sols, ph.liq = false) (hf : fo2 = log10fo2 delta T P b)
    (ok : BufOK mode T P (rows (l :: sols)).length (Ext.of o delta b) ((X l).std o) (l :: sols) (state mode T P (l :: sols))) :
    ∃ R, ironRows fe3 fe2 (l :: sols) comps ([], none) = some R ∧
    let N := (rows (l :: sols)).length
    let E := Ext.of o delta b
    let M := if mode = .gibbs then N else N + 1
    let q := rowsWritten mode R 1
    let S := bufferedAssemble mode T P N E (fun ph => (X ph).std o) l [] sols
    let W := S.corrected mode 1 (fun _ => lambdaO) lambda
    let C := bufferedMatrix mode T P fo2 b X R l sols
    let F := decomp q M q (C, h0)
    let r := quad (M - q) (fun i j => Reduced.hat F q M W (q + i) (q + j))
      (fun i => Reduced.rhs F q M W S.b (fwd F.1 (fun _ => 0) q) (q + i)) g0 h0' p0
    let x := solve q M C (fun _ => 0) (fun j => r.2.2 (j - q)) h0
    q < M →
    (∀ a : ℕ → ℝ, (∀ j < M, ∑ i ∈ range q, a i * C i j = 0) → ∀ i < q, a i = 0) →
    r.1 = M - q →
    Keeps mode T P E ((X l).std o) fe3 fe2 comps (l :: sols) M x ∧
    ∀ nu, Keeps mode T P E ((X l).std o) fe3 fe2 comps (l :: sols) M nu →
      ∑ k ∈ range M, nu k * (slope (Phi mode T P N E ((X l).std o) (l :: sols)) k (state mode T P (l :: sols))
        + ∑ j ∈ range M, W k j * x j) = 0 := by
  have hNM : (rows (l :: sols)).length ≤ if mode = .gibbs then (rows (l :: sols)).length else (rows (l :: sols)).length + 1 := by
    split_ifs <;> omega
  obtain ⟨R, hR, hlen, hrows⟩ := C70_iron_rows fe3 fe2 (l :: sols) comps hs h2 h3 hne _ hNM
  refine ⟨R, hR, ?_⟩
  intro N E M q S W C F r x hq hind hr
  obtain ⟨c1, c2⟩ := C68_newton_step q M hq C W S.b (fun _ => 0) h0 g0 h0' p0 hind hr
  have hqv : q = R.length + 1 + if mode = .gibbs then 0 else 1 := rfl
  have hgap : ∀ k, slope (gap mode T P N E ((X l).std o)) k (state mode T P (l :: sols)) = C R.length k := fun k => by
    have : C R.length k = bufferRow mode T P N fo2 b X 0 l k := by
      simp only [C, bufferedMatrix, lt_irrefl, dite_false, if_true]
      rfl
    rw [this]
    exact (C70_constraint_row mode T P delta fo2 b o X l sols hf ok k).deriv
  have hcon : mode ≠ .gibbs → ∀ k, slope (Con mode T P N (l :: sols)) k (state mode T P (l :: sols)) = C (R.length + 1) k := by
    intro hm k
    have : C (R.length + 1) k = conMatrix mode T P [] (l :: sols) 0 k := by
      simp only [C, bufferedMatrix]
      rw [dif_neg (by omega), if_neg (by omega)]
    rw [this]
    exact (C69_constraint_row mode T P (l :: sols) [] hm hsol ok.sys k).deriv
  have key : ∀ nu : ℕ → ℝ, (∀ i < q, ∑ j ∈ range M, C i j * nu j = 0) ↔
      Keeps mode T P E ((X l).std o) fe3 fe2 comps (l :: sols) M nu := by
    intro nu
    have hox : (∀ i < R.length, ∑ j ∈ range M, C i j * nu j = 0) ↔ ∀ r ∈ R, dot M r nu = 0 := by
      constructor
      · intro h r hr
        obtain ⟨i, hi, rfl⟩ := List.getElem_of_mem hr
        rw [← h i hi, dot]
        exact sum_congr rfl fun j _ => by simp only [C, bufferedMatrix, dif_pos hi]
      · intro h i hi
        rw [← h _ (List.getElem_mem hi), dot]
        exact sum_congr rfl fun j _ => by simp only [C, bufferedMatrix, dif_pos hi]
    unfold Keeps
    rw [← and_assoc, ← hrows nu]
    constructor
    · intro h
      refine ⟨hox.mp fun i hi => h i (by omega), ?_, fun hm => ?_⟩
      · exact (sum_congr rfl fun k _ => congrArg (· * nu k) (hgap k)).trans (h _ (by omega))
      · exact (sum_congr rfl fun k _ => congrArg (· * nu k) (hcon hm k)).trans (h _ (by rw [hqv, if_neg hm]; omega))
    · rintro ⟨a1, a2, a3⟩ i hi
      rcases lt_trichotomy i R.length with hlt | heq | hgt
      · exact hox.mpr a1 i hlt
      · rw [heq, ← a2]
        exact sum_congr rfl fun k _ => by rw [← hgap]
      · have hm : mode ≠ .gibbs := by
          intro hm
          rw [hqv, if_pos hm] at hi
          omega
        have : i = R.length + 1 := by
          rw [hqv, if_neg hm] at hi
          omega
        rw [this, ← a3 hm]
        exact sum_congr rfl fun k _ => by rw [← hcon hm]
  refine ⟨(key x).mp c1, fun nu hnu => ?_⟩
  rw [← c2 nu ((key nu).mpr hnu)]
  refine sum_congr rfl fun k _ => ?_
  have hg : slope (Phi mode T P N E ((X l).std o) (l :: sols)) k (state mode T P (l :: sols)) = -S.b k :=
    (C70_gradient mode T P E (fun ph => (X ph).std o) l sols ok k).deriv
  rw [hg]
  congr 1
  ring

/-- **C70.** At given temperature and pressure, when the gradient of the potential of the open system vanishes along the
directions that are kept (as it does where the step is zero), every reaction among the end members present is in equilibrium
with oxygen at the potential it has in the liquid. -/
theorem C70_equilibrium (E : Ext) (Y : Oxy l.na)
    (ok : BufOK .gibbs T P (rows (l :: sols)).length E Y (l :: sols) (state .gibbs T P (l :: sols)))
    (nu : ℕ → ℝ) (hnu : Keeps .gibbs T P E Y fe3 fe2 comps (l :: sols) (rows (l :: sols)).length nu)
    (hst : ∑ k ∈ range (rows (l :: sols)).length,
      nu k * slope (Phi .gibbs T P (rows (l :: sols)).length E Y (l :: sols)) k (state .gibbs T P (l :: sols)) = 0) :
    ∑ k ∈ range (rows (l :: sols)).length, nu k * (slope (Psi .gibbs T P (rows (l :: sols)).length (l :: sols)) k
        (state .gibbs T P (l :: sols)) - (o2Rows (l :: sols)).getD k 0 * Y.mu T P l.m) = 0 := by
  set L := l :: sols with hL
  set N := (rows L).length with hN
  set y := state .gibbs T P L with hy
  have hM : Match N 0 L y := match_state .gibbs T P L
  have hm : l.amounts 0 y = l.m := hM.1
  have hl : l.slots.length ≤ N := by rw [hN, hL, rows]; simp
  have hgap : ∑ k ∈ range N, slope (gap .gibbs T P N E Y) k y * nu k = 0 := hnu.2.2.1
  have e1 : ∀ k, slope (gap .gibbs T P N E Y) k y = (muJet .gibbs Y).D .gibbs T P N 0 y k := fun k => by
    have h1 := one_first (J := muJet .gibbs Y) (T := T) (P := P) (k := 0) (mu_ok ok.liq .gibbs) (by omega) k
    exact (h1.sub_const (E.e T P)).deriv
  have e2 : ∀ k, slope (Phi .gibbs T P N E Y L) k y = slope (Psi .gibbs T P N L) k y - ((o2Rows L).getD k 0 * Y.mu T P l.m
      + mO2T L * (muJet .gibbs Y).D .gibbs T P N 0 y k) := fun k => by
    have h1 := all_first (J := psiJet .gibbs) (T := T) (P := P) L 0 y (all_ok L 0 _ ok.sys).1 (by omega) k
    have h2 := all_first (J := oxyJet) L 0 y (oxy_all .gibbs T P N L 0 y) (by omega) k
    have h3 := one_first (J := potJet .gibbs E Y) (T := T) (P := P) (k := 0) (pot_ok ok.liq ok.ext .gibbs) (by omega) k
    have h := (h1.sub (h2.mul h3)).deriv
    have hO : total (fun ph => (oxyJet ph).f) .gibbs T P N 0 L y = mO2T L := mO2T_eq .gibbs T P N L 0 y hM
    have hp : slope (Psi .gibbs T P N L) k y = sumD (psiJet .gibbs) .gibbs T P N 0 L y k := h1.deriv
    rw [phi_eq, hp]
    refine h.trans ?_
    rw [shift_zero, hO, oxy_D, hm]
    simp only [Nat.zero_le, if_true, Nat.sub_zero]
    rfl
  simp only [e1] at hgap
  simp only [e2] at hst
  have : ∀ k, nu k * (slope (Psi .gibbs T P N L) k y - (o2Rows L).getD k 0 * Y.mu T P l.m)
      = nu k * (slope (Psi .gibbs T P N L) k y - ((o2Rows L).getD k 0 * Y.mu T P l.m
        + mO2T L * (muJet .gibbs Y).D .gibbs T P N 0 y k)) + mO2T L * ((muJet .gibbs Y).D .gibbs T P N 0 y k * nu k) := by
    intro k; ring
  simp only [this, sum_add_distrib, ← mul_sum, hst, hgap]
  ring

end step

/-! ### More than one liquid -/

/-- The derivative in temperature of the potential of oxygen in the buffer, divided by the temperature at given enthalpy
(specification). -/
def heatSlope (mode : Mode) (T P : ℝ) (E : Ext) : ℝ :=
  if mode = .isenthalpic then deriv (fun t => E.e t P / t) T else deriv (fun t => E.e t P) T

theorem sum_liqB (mode : Mode) (hmode : mode.heat = true) (T P : ℝ) (N : ℕ) (mT : ℝ) (E : Ext) (X : (ph : Phase) → Oxy ph.na)
    (l : Phase) (i : ℕ) (y : ℕ → ℝ) (L : List Phase) : ∀ k, k + (rows L).length ≤ N →
    sumAt (liqB mode T P N mT E X i) k L = sumD oxyJet mode T P N k L y i * (potJet mode E (X l)).f T P l.m
      + if i = N then L.length * (mT * (potJet mode E (X l)).t T P l.m) else 0 := by
  induction L with
  | nil => intro k _; simp [sumAt, sumD]
  | cons ph L ih =>
    intro k hN
    simp only [rows, List.length_append, List.length_map] at hN
    rw [sumAt, sumD, ih _ (by omega)]
    have key : liqB mode T P N mT E X i k ph = (oxyJet ph).D mode T P N k y i * (potJet mode E (X l)).f T P l.m
        + if i = N then mT * (potJet mode E (X l)).t T P l.m else 0 := by
      unfold liqB Jet.D
      by_cases h : k ≤ i ∧ i - k < ph.slots.length
      · have hi : i ≠ N := by omega
        simp only [dif_pos h, if_neg hi]
        cases mode <;> simp [Mode.heat] at hmode <;> simp only [oxyJet, potJet, extJet, extTJet] <;> ring
      · simp only [dif_neg h]
        by_cases h' : i = N
        · simp only [if_pos h']
          cases mode <;> simp [Mode.heat] at hmode <;> simp only [oxyJet, potJet, extJet, extTJet] <;> ring
        · simp only [if_neg h']
          ring
    rw [key]
    push_cast [List.length_cons]
    split_ifs <;> ring

theorem rows_append (A B : List Phase) : rows (A ++ B) = rows A ++ rows B := by
  induction A with
  | nil => rfl
  | cons ph A ih => simp [rows, ih]

theorem sumD_append (J : (ph : Phase) → Jet ph) (mode : Mode) (T P : ℝ) (N : ℕ) (y : ℕ → ℝ) (i : ℕ) (B A : List Phase) : ∀ k,
    sumD J mode T P N k (A ++ B) y i = sumD J mode T P N k A y i + sumD J mode T P N (k + (rows A).length) B y i := by
  induction A with
  | nil => intro k; simp [sumD, rows]
  | cons ph A ih =>
    intro k
    rw [List.cons_append, sumD, sumD, ih, rows, List.length_append, List.length_map, Nat.add_assoc, ← add_assoc]

/-- **C70.** At given enthalpy or entropy, for any number of liquids, the right-hand side is minus the gradient of the potential
of the open system, except that the oxygen's part of the entry for temperature is added once for every liquid (a finding:
with two or more liquids that entry is wrong). -/
theorem C70_heat_gradient (mode : Mode) (hmode : mode.heat = true) (T P : ℝ) (E : Ext) (X : (ph : Phase) → Oxy ph.na) (l : Phase)
    (liqs sols : List Phase)
    (ok : BufOK mode T P (rows (l :: liqs ++ sols)).length E (X l) (l :: liqs ++ sols) (state mode T P (l :: liqs ++ sols)))
    (i : ℕ) :
    HasDerivAt (fun h => Phi mode T P (rows (l :: liqs ++ sols)).length E (X l) (l :: liqs ++ sols)
        (shift (state mode T P (l :: liqs ++ sols)) i h))
      (-(bufferedAssemble mode T P (rows (l :: liqs ++ sols)).length E X l liqs sols).b i
        + if i = (rows (l :: liqs ++ sols)).length then
            liqs.length * (mO2T (l :: liqs ++ sols) * heatSlope mode T P E) else 0) 0 := by
  set L := l :: liqs ++ sols with hL
  set N := (rows L).length with hN
  set y := state mode T P L with hy
  have hv : mode.at T P (y N) = (T, P) := at_state mode T P L
  have hM : Match N 0 L y := match_state mode T P L
  have hm : l.amounts 0 y = l.m := hM.1
  have hlen : (rows (l :: liqs)).length + (rows sols).length = N := by rw [hN, hL, rows_append, List.length_append]
  have hl : l.slots.length ≤ N := by
    have : l.slots.length ≤ (rows (l :: liqs)).length := by rw [rows]; simp
    omega
  have h1 := all_first (J := psiJet mode) L 0 y (all_ok L 0 _ ok.sys).1 (by omega) i
  have h2 := all_first (J := oxyJet) L 0 y (oxy_all mode T P N L 0 y) (by omega) i
  have h3 := one_first (J := potJet mode E (X l)) (k := 0) (pot_ok ok.liq ok.ext mode) (by omega) i
  have ht : heatSlope mode T P E = (potJet mode E (X l)).t T P l.m := by
    have hE := ok.ext
    rw [hv] at hE
    unfold heatSlope
    cases mode <;> simp [Mode.heat] at hmode
    · rw [if_pos rfl]
      exact ((extT_ok hE l l.m).theta).deriv
    · rw [if_neg (by decide)]
      exact hE.e_t.deriv
  rw [phi_eq]
  refine (h1.sub (h2.mul h3)).congr_deriv ?_
  rw [shift_zero, hv, hm]
  have hO : total (fun ph => (oxyJet ph).f) mode T P N 0 L y = mO2T L := mO2T_eq mode T P N L 0 y hM
  rw [hO]
  have hb : (bufferedAssemble mode T P N E X l liqs sols).b i
      = (assemble mode (hasNlCon mode true) T P N 0 L Mats.zero).b i + sumAt (liqB mode T P N (mO2T L) E X i) 0 (l :: liqs)
        + sumAt (solB mode T P E ((X l).mu T P l.m) i) (rows (l :: liqs)).length sols := rfl
  rw [hb, assemble_b (by simp [hasNlCon]) L 0 _ y hM hv, sum_liqB mode hmode T P N _ E X l i y _ 0 (by omega),
    sum_solB mode T P N E _ i y, factor_eq, ht]
  have hs : sumD oxyJet mode T P N 0 L y i = sumD oxyJet mode T P N 0 (l :: liqs) y i
      + sumD oxyJet mode T P N (rows (l :: liqs)).length sols y i := by
    rw [hL, sumD_append, zero_add]
  have hD : (potJet mode E (X l)).D mode T P N 0 y i = if i = N then (potJet mode E (X l)).t T P l.m else 0 := by
    unfold Jet.D
    simp only [hv, hm]
    by_cases h : 0 ≤ i ∧ i - 0 < l.slots.length
    · rw [dif_pos h, if_neg (by omega)]
      cases mode <;> simp [Mode.heat] at hmode <;> rfl
    · rw [dif_neg h]
  rw [hs, hD]
  simp only [Mats.zero]
  push_cast [List.length_cons]
  split_ifs <;> ring

end

end Magma.Engine.System
