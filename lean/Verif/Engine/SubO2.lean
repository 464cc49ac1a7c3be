import Verif.Engine.SystemPhase
import Verif.Engine.Evaluate

/-!
# The oxygen potential of an assemblage without liquid (subSolidusMuO2.c)

With no liquid the potential of oxygen is read off a reaction `4 FeO + O2 = 2 Fe2O3` written in the components of the solids
that are present. The function finds the reaction, evaluates it and its derivatives, and, in a second mode, runs the reaction
until the potential has a given value.
-/

namespace Magma.Engine.SubO2

open Finset Magma.Engine.System Magma.Thermo.Extensive Magma.Thermo.Compo
open Magma.Engine.Evaluate (Svd svSolve)
open Verif.Thermo.StdState (Std oxygen)

noncomputable section

/-! ## The reaction -/

/-- One column: the row of `solids` of the component and the number of the copy (`phaseIndex`, `nCoexist`;
subSolidusMuO2.c 225-241). -/
abbrev Col := ℕ × ℕ

/-- What the search for the reaction sees. `feo` and `fe2o3` are the two oxides of that type in `bulkSystem`. -/
structure Assemblage where
  /-- number of oxides, their bulk amounts -/
  nc : ℕ
  bulk : ℕ → ℝ
  feo : ℕ
  fe2o3 : ℕ
  /-- the components present, in order; the amount of each; `solids[].solToOx` -/
  cols : List Col
  amount : Col → ℝ
  ox : ℕ → ℕ → ℝ

/-- subSolidusMuO2.c 217-224: the oxides in the bulk composition. -/
def oxides (a : Assemblage) : List ℕ := (List.range a.nc).filter fun o => a.bulk o ≠ 0

/-- subSolidusMuO2.c 216-222: oxygen -1, FeO -4, Fe2O3 2. -/
def rhsOf (a : Assemblage) (o : ℕ) : ℝ := if o = a.fe2o3 then 2 else if o = a.feo then -4 else 0

/-- The number of rows, `mm`: oxygen first. -/
def nRow (a : Assemblage) : ℕ := (oxides a).length + 1

/-- The number of columns, `n`: oxygen first. -/
def nCol (a : Assemblage) : ℕ := a.cols.length + 1

/-- subSolidusMuO2.c 217-222, 298: the right-hand side. -/
def rhs (a : Assemblage) (i : ℕ) : ℝ :=
  if i = 0 then -1 else if i < nRow a then rhsOf a ((oxides a).getD (i - 1) 0) else 0

/-- subSolidusMuO2.c 259-261: the stoichiometric matrix. -/
def stoich (a : Assemblage) (i j : ℕ) : ℝ :=
  if i = 0 then (if j = 0 then 1 else 0)
  else if j = 0 then 0 else a.ox (a.cols.getD (j - 1) (0, 0)).1 ((oxides a).getD (i - 1) 0)

/-- subSolidusMuO2.c 286-287, 305-306: the weight of a column, ten for oxygen, the amount for a component. -/
def weight (a : Assemblage) (j : ℕ) : ℝ := if j = 0 then 10 else a.amount (a.cols.getD (j - 1) (0, 0))

/-- subSolidusMuO2.c 281-287: the weighted matrix when there are at least as many rows as columns. -/
def tall (a : Assemblage) (i j : ℕ) : ℝ := stoich a i j * weight a j

/-- subSolidusMuO2.c 281, 290-291: otherwise its transpose, filled up with columns of zeros to a square. -/
def wide (a : Assemblage) (j i : ℕ) : ℝ := if i < nRow a then stoich a i j * weight a j else 0

/-- The decomposition with the two orthogonal factors exchanged, subSolidusMuO2.c 302. -/
def flip (d : Svd) : Svd := ⟨d.V, d.S, d.U⟩

/-- subSolidusMuO2.c 295-302: the weighted solution; `d` is what `gsl_linalg_SV_decomp` returns. -/
def solution (a : Assemblage) (d : Svd) : ℕ → ℝ :=
  if nCol a ≤ nRow a then svSolve (nRow a) (nCol a) d (rhs a) else svSolve (nCol a) (nCol a) (flip d) (rhs a)

/-- subSolidusMuO2.c 268, 304-318, 322-329: the reaction, scaled to one mole of oxygen consumed; none if FeO or Fe2O3 is
missing or if oxygen has no coefficient. -/
def reaction (a : Assemblage) (d : Svd) : Option (ℕ → ℝ) :=
  if a.feo ∈ oxides a ∧ a.fe2o3 ∈ oxides a then
    if solution a d 0 ≠ 0 then
      some fun j => solution a d j * weight a j / -(solution a d 0 * 10)
    else none
  else none

/-- The static variables `olddstoich`, `oldPhaseIndex`, `oldNCoexist`, `oldMm` (`oldN` is one more than the length of `cols`);
subSolidusMuO2.c 181-184. -/
structure Cache where
  nu : ℕ → ℝ
  cols : List Col
  mm : ℕ

/-- subSolidusMuO2.c 243-253: whether the reaction of the last call is used again. -/
def fits (a : Assemblage) : Option Cache → Prop
  | none => False
  | some c => nRow a = c.mm ∧ a.cols = c.cols ∧ ∀ q ∈ a.cols, |a.amount q| > 5 / 10 ^ 6

open Classical in
/-- subSolidusMuO2.c 255-346: the reaction used by a call and what is remembered for the next one. -/
def call (a : Assemblage) (d : Svd) (c : Option Cache) : Option (ℕ → ℝ) × Option Cache :=
  if fits a c then (c.map Cache.nu, c)
  else match reaction a d with
    | some nu => (some nu, some ⟨nu, a.cols, nRow a⟩)
    | none => (none, c)

/-! ## The value and its derivatives -/

/-- A pure solid or one copy of a solution, with the outputs of its activity function: activities and their derivatives in the
compositional variables. -/
structure Solid where
  ph : Phase
  act : ℝ → ℝ → (Fin ph.nr → ℝ) → Fin ph.na → ℝ
  dact : ℝ → ℝ → (Fin ph.nr → ℝ) → Fin ph.na → Fin ph.nr → ℝ

/-- The components with a column: the only one of a pure solid, those with a nonzero amount of a solution
(subSolidusMuO2.c 225-241). -/
def Solid.on (s : Solid) : Finset (Fin s.ph.na) := s.ph.slots.toFinset

variable {K : ℕ}

/-- Amounts of the components of every solid. -/
abbrev Amounts (S : Fin K → Solid) := ∀ i, Fin (S i).ph.na → ℝ

/-- Coefficients of a reaction, that of oxygen and those of the components. -/
structure Reaction (S : Fin K → Solid) where
  o : ℝ
  c : ∀ i, Fin (S i).ph.na → ℝ

/-- Sum over the columns except oxygen. -/
def csum (S : Fin K → Solid) (f : ∀ i, Fin (S i).ph.na → ℝ) : ℝ := ∑ i, ∑ j ∈ (S i).on, f i j

/-- subSolidusMuO2.c 363, 378: the activity, not below 1e-16. -/
def a (s : Solid) (T P : ℝ) (m : Fin s.ph.na → ℝ) (j : Fin s.ph.na) : ℝ :=
  if s.ph.pure then 1 else max (s.act T P (s.ph.conv.toR m) j) (1 / 10 ^ 16)

/-- subSolidusMuO2.c 349-392 (mask `FIRST`): standard-state part and logarithm of the activity product. -/
def muO2 (S : Fin K → Solid) (nu : Reaction S) (T P : ℝ) (m : Amounts S) : ℝ :=
  nu.o * (oxygen T P).g + csum S (fun i j => nu.c i j * ((S i).ph.std j T P).g)
    + Thermo.Mixing.R * T * Real.log (∏ i, ∏ j ∈ (S i).on, a (S i) T P (m i) j ^ nu.c i j)

/-- subSolidusMuO2.c 484, 500-507: derivative of the activity of a component in the moles of another of the same solid. -/
def dadm (s : Solid) (T P : ℝ) (m : Fin s.ph.na → ℝ) (j l : Fin s.ph.na) : ℝ :=
  if s.ph.pure then 0 else ∑ k, s.ph.conv.dm m k l * s.dact T P (s.ph.conv.toR m) j k

/-- The activity as used for the derivative, subSolidusMuO2.c 483, 501: no lower limit. -/
def a' (s : Solid) (T P : ℝ) (m : Fin s.ph.na → ℝ) (j : Fin s.ph.na) : ℝ :=
  if s.ph.pure then 1 else s.act T P (s.ph.conv.toR m) j

/-- subSolidusMuO2.c 516-520 (mask `SECOND`); the activities of other solids do not depend on the amount. -/
def dm (S : Fin K → Solid) (nu : Reaction S) (T P : ℝ) (m : Amounts S) (i : Fin K) (l : Fin (S i).ph.na) : ℝ :=
  (∑ j ∈ (S i).on, nu.c i j * dadm (S i) T P (m i) j l / a' (S i) T P (m i) j) * (Thermo.Mixing.R * T)

/-- subSolidusMuO2.c 544-556 and its copies: `mTotal` times the derivative in the moles plus the molar property; nothing for
a pure solid. -/
def pmix (s : Solid) (p : (Fin s.ph.nr → ℝ) → ℝ) (dp : (Fin s.ph.nr → ℝ) → Fin s.ph.nr → ℝ) (m : Fin s.ph.na → ℝ)
    (j : Fin s.ph.na) : ℝ :=
  if s.ph.pure then 0
  else (∑ k, m k) * ∑ k, s.ph.conv.dm m k j * dp (s.ph.conv.toR m) k + p (s.ph.conv.toR m)

/-- subSolidusMuO2.c 525-569 (mask `THIRD`). -/
def dt (S : Fin K → Solid) (nu : Reaction S) (T P : ℝ) (m : Amounts S) : ℝ :=
  -(nu.o * (oxygen T P).s + csum S (fun i j => nu.c i j * ((S i).ph.std j T P).s))
    - csum S fun i j => nu.c i j * pmix (S i) ((S i).ph.mix.s T P) ((S i).ph.mix.sr T P) (m i) j

/-- subSolidusMuO2.c 571-615 (mask `FOURTH`): the volume of oxygen is left out. -/
def dp (S : Fin K → Solid) (nu : Reaction S) (T P : ℝ) (m : Amounts S) : ℝ :=
  (nu.o * 0 + csum S (fun i j => nu.c i j * ((S i).ph.std j T P).v))
    + csum S fun i j => nu.c i j * pmix (S i) ((S i).ph.mix.v T P) ((S i).ph.mix.vr T P) (m i) j

/-- subSolidusMuO2.c 655-676: third derivative of an extensive property, from the derivatives `g1, g2, g3` of the molar
property and `dr, d2r, d3r` of the compositional variables; `M` is the total. -/
def thirdOf {na nr : ℕ} (g1 : Fin nr → ℝ) (g2 : Fin nr → Fin nr → ℝ) (g3 : Fin nr → Fin nr → Fin nr → ℝ) (M : ℝ)
    (dr : Fin nr → Fin na → ℝ) (d2r : Fin nr → Fin na → Fin na → ℝ) (d3r : Fin nr → Fin na → Fin na → Fin na → ℝ)
    (y k q : Fin na) : ℝ :=
  ∑ l, ((∑ o, (M * ((d2r o q k * dr l y + d2r l y k * dr o q + d2r l y q * dr o k) * g2 o l
        + dr o q * dr l y * ∑ p, dr p k * g3 p o l)
      + g2 o l * (dr o k * dr l y + dr o k * dr l q + dr o q * dr l y)))
    + g1 l * (M * d3r l y k q + d2r l y k + d2r l k q + d2r l q y))

/-- subSolidusMuO2.c 643-676: that of the Gibbs energy of mixing of a solution. -/
def third (s : Solid) (T P : ℝ) (m : Fin s.ph.na → ℝ) (y k q : Fin s.ph.na) : ℝ :=
  thirdOf (s.ph.mix.gr T P (s.ph.conv.toR m)) (s.ph.mix.grr T P (s.ph.conv.toR m)) (s.ph.mix.grrr T P (s.ph.conv.toR m))
    (∑ i, m i) (s.ph.conv.dm m) (s.ph.conv.d2m m) (s.ph.conv.d3m m) y k q

/-- subSolidusMuO2.c 700-701 for two components of the same solid. -/
def d2same (S : Fin K → Solid) (nu : Reaction S) (T P : ℝ) (m : Amounts S) (i : Fin K) (k q : Fin (S i).ph.na) : ℝ :=
  if (S i).ph.pure then 0 else ∑ j ∈ (S i).on, nu.c i j * third (S i) T P (m i) j q k

/-- subSolidusMuO2.c 617-704 (mask `FIFTH`): zero between different solids and for pure solids. -/
def d2m (S : Fin K → Solid) (nu : Reaction S) (T P : ℝ) (m : Amounts S) (i : Fin K) (k : Fin (S i).ph.na) (i' : Fin K)
    (q : Fin (S i').ph.na) : ℝ :=
  if h : i' = i then d2same S nu T P m i k (h ▸ q) else 0

/-- subSolidusMuO2.c 735-743, 792-798: second derivative of an extensive property. -/
def secondOf {na nr : ℕ} (g1 : Fin nr → ℝ) (g2 : Fin nr → Fin nr → ℝ) (M : ℝ)
    (dr : Fin nr → Fin na → ℝ) (d2r : Fin nr → Fin na → Fin na → ℝ) (y k : Fin na) : ℝ :=
  ∑ l, (g1 l * (M * d2r l y k + dr l y + dr l k) + M * dr l k * ∑ o, dr o y * g2 o l)

/-- subSolidusMuO2.c 722-743, 779-798: that of an extensive property of mixing of a solution. -/
def second (s : Solid) (dp : (Fin s.ph.nr → ℝ) → Fin s.ph.nr → ℝ) (d2p : (Fin s.ph.nr → ℝ) → Fin s.ph.nr → Fin s.ph.nr → ℝ)
    (m : Fin s.ph.na → ℝ) (y k : Fin s.ph.na) : ℝ :=
  secondOf (dp (s.ph.conv.toR m)) (d2p (s.ph.conv.toR m)) (∑ i, m i) (s.ph.conv.dm m) (s.ph.conv.d2m m) y k

/-- subSolidusMuO2.c 706-761 (mask `SIXTH`). -/
def d2mt (S : Fin K → Solid) (nu : Reaction S) (T P : ℝ) (m : Amounts S) (i : Fin K) (y : Fin (S i).ph.na) : ℝ :=
  if (S i).ph.pure then 0
  else -∑ k ∈ (S i).on, nu.c i k * second (S i) ((S i).ph.mix.sr T P) ((S i).ph.mix.srr T P) (m i) y k

/-- subSolidusMuO2.c 763-816 (mask `SEVENTH`). -/
def d2mp (S : Fin K → Solid) (nu : Reaction S) (T P : ℝ) (m : Amounts S) (i : Fin K) (y : Fin (S i).ph.na) : ℝ :=
  if (S i).ph.pure then 0
  else ∑ k ∈ (S i).on, nu.c i k * second (S i) ((S i).ph.mix.vr T P) ((S i).ph.mix.vrr T P) (m i) y k

/-- subSolidusMuO2.c 818-862 (mask `EIGHTH`). -/
def d2t2 (S : Fin K → Solid) (nu : Reaction S) (T P : ℝ) (m : Amounts S) : ℝ :=
  -((nu.o * (oxygen T P).cp + csum S (fun i j => nu.c i j * ((S i).ph.std j T P).cp))
    + csum S fun i j => nu.c i j * pmix (S i) ((S i).ph.mix.cp T P) ((S i).ph.mix.cpr T P) (m i) j) / T

/-- subSolidusMuO2.c 864-908 (mask `NINTH`). -/
def d2tp (S : Fin K → Solid) (nu : Reaction S) (T P : ℝ) (m : Amounts S) : ℝ :=
  (nu.o * 0 + csum S (fun i j => nu.c i j * ((S i).ph.std j T P).dvdt))
    + csum S fun i j => nu.c i j * pmix (S i) ((S i).ph.mix.vt T P) ((S i).ph.mix.vrt T P) (m i) j

/-- subSolidusMuO2.c 910-954 (mask `TENTH`). -/
def d2p2 (S : Fin K → Solid) (nu : Reaction S) (T P : ℝ) (m : Amounts S) : ℝ :=
  (nu.o * 0 + csum S (fun i j => nu.c i j * ((S i).ph.std j T P).dvdp))
    + csum S fun i j => nu.c i j * pmix (S i) ((S i).ph.mix.vp T P) ((S i).ph.mix.vrp T P) (m i) j

/-! ## Running the reaction to a given potential -/

/-- What the loop changes: amounts of the components, moles of oxygen, the bookkeeping of the secant correction. -/
structure Loop (S : Fin K → Solid) where
  m : Amounts S
  o2 : ℝ
  fudge : ℝ
  err : ℝ
  iter : ℕ

/-- subSolidusMuO2.c 414: the reaction has advanced by `xi`. -/
def advance {S : Fin K → Solid} (nu : Reaction S) (xi : ℝ) (m : Amounts S) : Amounts S :=
  fun i j => if j ∈ (S i).on then m i j + xi * nu.c i j else m i j

/-- subSolidusMuO2.c 440-448: an oxide of the bulk composition from the amounts of the solids. -/
def bulkOf (S : Fin K → Solid) (m : Amounts S) (o : ℕ) : ℝ := ∑ i, ∑ j, m i j * (S i).ph.ox j o

/-- subSolidusMuO2.c 407-455: a trial is accepted if no oxygen is overdrawn, pure solids and oxides are not negative and the
solutions pass their own test. -/
structure Acceptable (S : Fin K → Solid) (test : ∀ i, (Fin (S i).ph.na → ℝ) → Bool) (nc : ℕ) (m : Amounts S) (o2 : ℝ) :
    Prop where
  o2 : 0 ≤ o2
  pure : ∀ i, (S i).ph.pure = true → ∀ j, 0 ≤ m i j
  sol : ∀ i, (S i).ph.pure = false → test i (m i) = true
  bulk : ∀ o < nc, 0 ≤ bulkOf S m o

/-- subSolidusMuO2.c 379-380: the sum the step is divided by. -/
def den (S : Fin K → Solid) (nu : Reaction S) (T P : ℝ) (m : Amounts S) : ℝ :=
  csum S fun i j => if (S i).ph.pure then 0 else nu.c i j ^ 2 * dadm (S i) T P (m i) j j / a (S i) T P (m i) j

/-- `DBL_EPSILON`. -/
def eps : ℝ := 1 / 2 ^ 52

section run
variable (S : Fin K → Solid) (test : ∀ i, (Fin (S i).ph.na → ℝ) → Bool) (nc : ℕ) (nu : Reaction S) (T P target : ℝ)

/-- subSolidusMuO2.c 400: the first step tried. -/
def step (s : Loop S) : ℝ :=
  s.fudge * (target - muO2 S nu T P s.m) / (Thermo.Mixing.R * T * den S nu T P s.m)

/-- subSolidusMuO2.c 401-405: the secant correction. -/
def secant (s : Loop S) : Loop S :=
  let err0 := if s.iter = 3 then s.err else muO2 S nu T P s.m - target
  { s with
    err := err0
    fudge := if s.iter = 4 then s.fudge
      else if err0 ≠ muO2 S nu T P s.m - target then s.fudge * (err0 / (err0 - muO2 S nu T P s.m + target)) else s.fudge
    iter := s.iter + 1 }

/-- subSolidusMuO2.c 406-469: steps are halved until one is accepted (`some`) or they are below 100 epsilon (`none`). -/
inductive Search (s : Loop S) : ℝ → Option (Loop S) → Prop
  | accept {xi : ℝ} (h : Acceptable S test nc (advance nu xi s.m) (s.o2 - xi)) :
      Search s xi (some { s with m := advance nu xi s.m, o2 := s.o2 - xi })
  | stop {xi : ℝ} (h : ¬ Acceptable S test nc (advance nu xi s.m) (s.o2 - xi)) (hx : |xi / 2| < 100 * eps) : Search s xi none
  | halve {xi : ℝ} {r} (h : ¬ Acceptable S test nc (advance nu xi s.m) (s.o2 - xi)) (hx : ¬ |xi / 2| < 100 * eps)
      (hr : Search s (xi / 2) r) : Search s xi r

/-- subSolidusMuO2.c 351, 397-473 (mask 0): a run from the state `s` that ends with the amounts `m`, converged or given up.
A run that goes on for ever is no run here; one that divides by a zero sum goes on for ever, because the step is infinite and
so are its halves. -/
inductive Run : Loop S → Bool → Amounts S → Prop
  | done {s : Loop S} (h : |muO2 S nu T P s.m - target| < Real.sqrt eps) : Run s true s.m
  | fail {s : Loop S} (h : ¬ |muO2 S nu T P s.m - target| < Real.sqrt eps) (hd : den S nu T P s.m ≠ 0)
      (hs : Search S test nc nu (secant S nu T P target s) (step S nu T P target s) none) : Run s false s.m
  | next {s s' : Loop S} {b m} (h : ¬ |muO2 S nu T P s.m - target| < Real.sqrt eps) (hd : den S nu T P s.m ≠ 0)
      (hs : Search S test nc nu (secant S nu T P target s) (step S nu T P target s) (some s')) (hr : Run s' b m) : Run s b m

end run

end

end Magma.Engine.SubO2
