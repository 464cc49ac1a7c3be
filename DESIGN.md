# Formal model of magmasource/MAGMA (easyMelts / MELTS engine) in Lean 4

## Trusted base
* Lean 4.33.0's kernel.
* The axioms each theorem depends on: a subset of `propext`, `Classical.choice`, `Quot.sound`
  (Mathlib's usual three). No axiom is added, nothing is accepted by compiled evaluation.
* The reading of the C/C++ text in /repo that the definitions transcribe. Every definition in the
  model cites file and lines. Nothing in /repo was built or run.
* Mathlib for ordered fields, finite sums, real analysis (`Real.log`, `HasDerivAt`), matrices.

## Number model
C `double` is modelled by an arbitrary ordered field `K` (theorems hold for ℚ and ℝ) or by ℝ where
`sqrt`, `log`, `exp` or derivatives occur. So rounding, overflow and NaN are *not* modelled,
except where a property is about rounding; there a small rational model of round-to-nearest
binary64 addition and multiplication is used and stated explicitly. Division by zero is an explicit
outcome wherever the C code can reach it and the property mentions it.

## Out of the model
OpenGL/ImGui user interface, XML text writers, GSL internals (SVD/LU kernels are parameters),
the numerical values of thermodynamic tables except where copied (buffers, solution models that are
modelled), signal handling (`setjmp`), Motif code under `#ifndef BATCH_VERSION`.

## Layout
* `lean/Verif/<Area>/<Topic>.lean`: definitions transcribing the code, each with the file and lines it
  models, then a short specification section, then lemmas, then the theorems `Cnn_*`, then `example`s on
  concrete data that meet the hypotheses. Where the proofs are long they are in `<Topic>Props.lean`.
* Every theorem whose name starts with `Cnn_` belongs to property `Cnn`; `tools/manifest.py` collects them into
  `MANIFEST.json`. A name ending in `_partial` proves less than the property; the rest is in its doc comment.
* Some properties are *findings*: the English statement says what the code does wrong, and the theorem shows it for
  all inputs in a class, or exhibits the failing case.

## Per property: what is modelled and how it is proved
See `properties.jsonl` for the statements.

| id | module | modelled code | method |
|----|--------|---------------|--------|
| C01, C02, C03 | `Engine/Frac`, `FracProps`, `FracRefs`, `Frac2` | UPDATE_SYSTEM of silmin.c: solid, fluid and liquid fractionation, ledgers, clean-up of trace oxides | loops as folds; induction over phases and copies; countermodel for C03 |
| C04 | `Engine/AddDrop`, `AddDropProps` | ADD_PHASE: seed halving loop with an arbitrary feasibility test | oxide totals invariant; termination by halving |
| C05, C06 | `Engine/AddDrop`, `DropProps` | DROP_PHASE for solids and liquids | list surgery, sums; countermodel with three liquids |
| C07 | `Engine/Select` | selection of the phase to nucleate | induction over the phase table |
| C08, C09, C45, C46, C57 | `Engine/Automaton`, `AutomatonProps`, `AutomatonLive` | the step and stage automaton of `silmin()`, numerics as arbitrary input | inductive invariants over all input streams |
| C10, C11 | `Engine/Path` | T, P, H, S, V increments | induction over steps |
| C12 | `Engine/Assim` | assimilation increments | exact induction; rational model of binary64 for the rounding finding |
| C13 | `Engine/CopyState` | copying a state to fresh memory / over an existing one, with an explicit heap | field-wise equality, separation; countermodels |
| C14 | `Engine/Bulk` | bulk and liquid mass up-date, reported fO2 | finite sums |
| C15, C43, C44 | `Engine/SubProps` | adding liquid below the solidus, redistribution among solids | algebra on lists |
| C16 | `Engine/Newton` | enthalpy/entropy/volume Newton corrections | induction over passes; mean value bounds |
| C17, C18 | `Engine/Liquidus` | the liquidus search automaton | loop invariant: bracket width |
| C19, C47 | `Num/Min1d` | 1-D minimiser of the linear search | loop invariants, arbitrary objective |
| C20 | `Num/Vmmin` | variable-metric minimiser (nash.c) | symmetric positive metric invariant, descent |
| C21, C22 | `Thermo/Buffers` | buffer curves and their derivatives | `HasDerivAt` |
| C23 | `Thermo/Extensive` | intensive to extensive derivatives | chain rule, Euler |
| C24 | `Thermo/Mixing`, `Thermo/Minerals/*` | solution models: G, potentials, activities | `HasDerivAt`, Gibbs-Duhem; models with internal ordering (`Thermo/Ordering`, `OrderTables`, `Ordered/*`): the envelope theorem up to third order over tables generated from the macros of the file, with the ordering state the solution of the equations `order()` solves (the Newton iteration itself is taken as having converged). End members that order by themselves (`OrderEnds`: `pureOrder`, `pure*`, `ENDMEMBERS`) are subtracted as the code does. Covered: albite, cummingtonite, nepheline, olivine (all six elements present), amphibole (both structures and the choice between them), spinel (all cations present, above 885 K), ortho-oxide (all end members present, above 482 K), rhombohedral oxide (along a branch of regular solutions, below 2044 K), melilite (all end members present, above 800 K; also the wrong derivative where `order()` stops at its bound); kalsilite (no ordering state). The other ordering phases are not covered |
| C25 | `Thermo/Compo`, `ConvTables` | moles to independent variables and back | algebra per phase |
| C26 | `Support/Formula*` | formula parser and molecular weights, whole phase tables | induction over characters |
| C27, C28 | `Support/MThread` | thread-specific storage emulation | refinement of a per-thread map, invariants over histories |
| C29 | `Num/FracApprox` | rational approximation of a double | continued-fraction invariants |
| C30, C54 | `Iface/Suppress` | phase suppression, wet liquidus | state-machine lemmas |
| C31, C37 | `Iface/Settings` | run modes, references, assimilants | invariants over call histories |
| C58 | `Support/TableData` (generated), `Support/Tables` | `InitComputeDataStruct`: all tables of both models, the SVD solver as any solution of the normal equations | certified inverse checked by the kernel, uniqueness of least squares |
| C52 | `Thermo/ElementRows` (generated), `Thermo/Elements` | FIRST->SECOND branch of every `con*` of the tables' solutions, the library's own pyroxene conversion, the analysis-to-elements loop | linear algebra over ℚ against the elements read from the formulas by the modelled parser |
| C59 | `Thermo/MuO2` | `muO2Liq` and its three variants, all ten outputs | real analysis: HasDerivAt along each component, in T and in P |
| C60 | `Thermo/StdState` | the record of `gibbs` for solids over ℝ (Berman and Saxena heat capacity, lambda transition, Berman and Vinet equation of state, order-disorder and composite end members, oxygen and sulfur gas; albite with its ordering in `Ordered/AlbProps`) | specification `Consistent` is a list of `HasDerivAt` statements; calculus; the Vinet volume by implicit differentiation on its branch, where a solution is proved to exist. Not modelled: Saxena equation of state (no table row in use selects it), silica polymorphs, enstatite, water, metals, biotites of Tajcmanova, stopping tolerance of the volume loop. |
| C61 | `Thermo/OrderExist`, `OrderPack`, `OrderStep`, `OrderSym`, `OrderUp`, `Thermo/Ordered/{SpinelEnds,SpinelProps,OrthoOxideEnds,OrthoOxideProps,RhombohedralEnds,RhombohedralProps,MeliliteSlope,MeliliteEnds,MeliliteProps,MeliliteClamp,CumProps,NephProps,OlivineProps,OlivineStep,ClinoamphiboleProps,OrthoamphiboleProps,AmphProps}` | Gibbs energy as a function of the ordering state; `isClino` of amphibole.c; the step of `order()` with its step-length caps, for any search direction | compactness and the infinite slope of `x ln x` at zero give an interior minimum; convexity gives uniqueness; induction on the iterations with the caps gives feasibility; for convergent ordering (`OrderSym`) strict convexity of the slope gives the three states and monotone convergence of Newton's iteration; for melilite (`OrderUp`) the energy is shown to curve upwards wherever its slope vanishes, and the loop of `order()` with its bounds is modelled whole. |
| C62 | `Iface/SaveLoad`, `SaveLoadProps`, `LoadAssim` | the file as a list of characters: number formatting and parsing, substring search, line splitting, the two functions line by line | round trip by a lemma per line and folds over the lines; digits by strong induction; invariants over the lines of any file for the assimilants. Exponents, infinities and NaN in numbers are left out. |
| C63 | `Thermo/LiquidStd`, `Thermo/LiquidBM` | `gibbs` for liquid components over ℝ: fusion from the solid, glass branch, Kress volume, silica, water in the three rhyolite-MELTS versions and pMELTS, carbon dioxide, calcium carbonate, and the Birch–Murnaghan equation of pMELTS with every intermediate of the C code | same specification `Consistent` as C60; calculus; the pMELTS strain by implicit differentiation of a strictly increasing function, existence by the intermediate value theorem; the tables of pure water and carbon dioxide are a parameter assumed consistent in temperature (for water at one bar in the rhyolite-MELTS modes C79 proves the assumption; only G and S and its derivatives are used); the Newton iteration for the volume is replaced by the equation it solves. |
| C64 | `Thermo/LambdaP`, `Thermo/Silica` | the branches of `gibbs` for quartz, tridymite, cristobalite and enstatite, and the four metal functions, over ℝ; the lambda contribution of quartz and cristobalite with every intermediate of the C code | specification `Consistent` of C60; derivatives by the rules and `field_simp`/`ring`; tridymite: both one-sided values at 383 K. |
| C65 | `Thermo/Liquid34` | `actLiq_v34` … `vmixLiq_v34` with the index table; any table of parameters | partial derivatives of a quadratic form over pairs and of the ideal terms; potentials by differentiating the extensive function of the moles; the index table and the names by evaluation over the whole finite domain. Not modelled: the warnings and aborts for negative mole fractions, mask FOURTH (ideal activities). |
| C66 | `Thermo/OrderFace`, `Thermo/LiquidCO2*` | `rANDsTOx`, the Taylor system and `loadTaylorCoefficients`, all `fill*` functions with their guards for absent species, `order` with initial guess, bisection and Newton loop, `gmixLiq` … `vmixLiq`, `actLiq` (masks FIRST–THIRD), in exact real arithmetic; the linear solves are exact | guards fixed on each face of composition space, then the ordering framework of C24 on that face; regular solution by a barycentric identity for quadratics; intermediate value theorem and a lower bound on the second derivative for existence and uniqueness; continuity of the root from that bound; loop invariants for the search. Not modelled: derivatives in the model parameters (mask FOURTH and higher, `dw`), rounding to zero of small Taylor coefficients, the cached previous state. |
| C67 | `Num/Reduced` | the projection of gradient and Hessian and the back-substitution for the multipliers, gradient_hessian.c 1255-1282 and 1394-1416, on top of the decomposition of C48 | the chain of reflections is an isometry whose inverse is the reassembly; the residual of the assembled step is orthogonal to every null direction of the constraints; second-order expansion of the quadratic model; a worked 2×3 example for the wrong multiplier. Exact real arithmetic. |
| C68 | `Num/Hfti` | `hfti` with pivot search, down-dating of the norms, interchanges, pseudorank, row reflections, back-substitution and un-permutation, lawson_hanson.c 161-239; scaling and call in silmin.c 932-968 | loop invariant: the working matrix is an isometry times the permuted input, norms exact, pivots non-increasing; rows reflected into a triangle; Pythagoras in the transformed coordinates. Exact real arithmetic, one right-hand side. |
| C69 | `Engine/System`, `Engine/SystemPhase`, `Engine/SystemProps`, `Engine/SystemExample` | assembly of `bMatrix`, `eMatrix`, `eMatrixT`/`eMatrixP` over the phases, gradient_hessian.c 237-506 and 790-1219 without oxygen buffer, the correction by the multiplier 1316-1391, the constraint matrix equality_constraints.c 258-487; mixing, conversion and standard-state tables are arguments (their consistency is C24, C25, C60-C66, which include the partial molar relations used here) | the entries of one phase are `HasDerivAt` derivatives of its potential on the face of the end members present; induction over the phases with row offsets; the step theorems combine this with C67, C68 |
| C70 | `Engine/Buffer`, `Engine/BufferProps`, `Engine/BufferStep`, `Engine/BufferExample` | the branches of gradient_hessian.c 553-788, 885-1219 taken when `fo2Path != FO2_NONE` and a liquid is present, the correction by the multipliers 1316-1391, equality_constraints.c 170-340 (allocation, iron rows, buffer row). Not modelled: the subsolidus buffer (there solid solutions index `eMatrix[k][colRow]` where `[colRow+m]` is meant, 1077-1121, and pure-phase loops run over one column too few, 885, 1119) | product rule on the jets of C69; induction over the oxides for the iron rows; hypotheses discharged from C59, C21, C60 (`C70_liquid`, `C70_buffer`) |
| C71 | `Engine/Saturation`, `Engine/SaturationProps`, `Engine/SaturationMin` | est_saturation_state.c 165-398, 404-468, 565-660, 683-769 over the solver of C53. The phase's `convert`, `activity`, `test` are arbitrary functions; the search for starting points inside a solvus (471-564) is an arbitrary input. Not modelled: the branch of `getAffinityAndComposition` of liquid below the solidus differs only in the names of these functions | the closed form of the first guess is a softmax; Gibbs' inequality for the minimum; the solver's success theorem with the rotation of C48/C67 (orthogonal, so errors do not grow) for the general phase; a zero residual is stationary for the ideal one |
| C72 | `Engine/Speciation`, `Engine/SpeciationProps`, `Engine/SpeciationCases` | est_satState_revised.c 54-162, 512-732 (one loop `Scheme` for both routines), evaluate_saturation.c 353-379, 441. The phase functions are arbitrary; the energy corrections of dependent pyroxene species (constants 168-505) are arbitrary. Not modelled: the spinel variant (748-905, not called) | each pass is the ideal guess of C71 with potentials shifted by RT ln gamma, so its uniqueness theorem gives the equations and the fixed points; closed-form runs for the ideal, single-member, false-success and oscillating phases |
| C73 | `Engine/Evaluate`, `EvaluateSvd`, `EvaluateProps`, `EvaluateExample` | `evaluateSaturationState` complete (evaluate_saturation.c 145-501): potentials of the first liquid with the Fe2O3 correction, fictive potentials from the solids by SVD, table of affinities, liquid below the solidus, flag. `gsl_linalg_SV_decomp` enters by its contract (`IsSvd`, hypothesis; example `svd3`); truncation and `gsl_linalg_SV_solve` are modelled; the estimators are functions (C71, C72); `activity`/`actLiq` outputs are data. Not modelled: GSL's computation of the decomposition | the residual is orthogonal to the columns, the Fredholm alternative gives exactness, Bessel's inequality the bound with truncation; sums over available components rearranged; C07 for the choice |
| C74 | Engine/Unmix, UnmixProps, UnmixExample; Num/Vmmin | `checkForCoexistingSolids` and `checkForCoexistingLiquids`: reference composition, absent end members rotated out, one `vmmin` search per end member, threshold, choice of the farthest, seed with halving (liquid) or from the last copy, label exceptions; solution functions arbitrary | the success of `vmmin` (C20_success_near) gives an evaluated point with the reported height; convexity along lines gives the tangent inequality; conservation by induction over the phases; a metastable binary solution for which the search is executed exactly; counterexamples for the unchecked amounts |
| C75 | Engine/SubO2*.lean, Thermo/ConvSym | `subsolidusmuO2` (subSolidusMuO2.c 167-965): columns, weighted matrix, truncated SVD solution of either shape, scaling, static cache, value, masks FIRST to TENTH, the mask-0 loop with halving and secant factor. Not modelled: static work arrays, the GSL routine itself (its contract is a hypothesis), floating point; the amounts of silminState written back on failure. A division by a zero sum of derivatives is a run that does not end. | exact solution of the consistent system from the SVD contract (`solve_exact` of C73); invariant of the cache by induction over calls; derivatives by the chain rule from C24/C25/C60 consistency, third derivatives through the ratio form of all conversions (ConvSym); induction over runs; counterexamples with explicit decompositions |
| C76 | Engine/LineSearch, LineSearchProps, LineDescent, LineExample, LineBuffer, LineBufferDescent | `linearSearch` (linear_search.c 165-785) without an oxygen buffer: range and feasibility checks, inner Newton iteration for temperature or pressure, potential. Simplified: real numbers; the moles of a solution are the sum of its end members; solution functions, standard states and tests are arguments. On a buffer: given temperature and pressure only, with liquid (re-speciation by `setRedox` of C51) and without (the corrected solids are an argument). Not modelled: the buffered inner iteration at given enthalpy, entropy or volume (where 384, 500, 621 read `solidDelta[i+1+j]` with a left-over `j` for the total of a solid, and 334, 449, 575 use the old temperature). | value: the code's sums equal `Psi`/`Con` of C69 at the moved unknowns (induction over phases); inner iteration: mean value theorem, induction over the 50 rounds; descent: multivariate chain rule, stationarity of the step from C69; counterexample with a vertical tangent |
| C77 | Num/PackedLU, PackedZero, PackedPair, Thermo/OrderSolve | `melts_LU_decomp`, `melts_LU_solve`, `melts_LU_svx` (melts_linalg.c 24-202): the packing loops with `N2` (negative = wrapped round), the three branches, the permutations, both triangular substitutions. GSL's `gsl_linalg_LU_decomp` is an argument with its manual's contract as hypothesis. Not modelled: `melts_LU_refine` (not called), floating point, olivine's SVD branch. | determinant of the factors for nonsingular matrices; induction over the packing loops; evaluation of the loops for three and four parameters; explicit counterexamples |
| C78 | `Thermo/OrderLimit`, `Thermo/Ordered/{SpinelLimit,OrthoOxideLimit,RhombohedralLimit,MeliliteLimit}` | the mixing energies and end-member energies of C24 for spinel, ortho-oxide, rhombohedral oxide and melilite, next to the pure end members | `x ln x` is continuous at zero and the feasible ordering states are compact, so minima converge (ultrafilters); trial states give the upper bound; for the two defective end members the limit is bounded by the titanium entropy left out |
| C79 | `Thermo/Water/{Jet3,Haar,HaarOk,HaarProps,DH78,Loop,Props,Steam,TenKbar}` | `whaar`: tables, base, residual and ideal-gas functions with the nine derivatives the source writes out, pressure and its derivatives, the properties, unit and reference-state changes, the density loop with its clamps, step limit and tests; `wdh78`; the record `gibbs` forms from them. Not modelled: the first guess of the density (a cubic equation, left arbitrary) and `psat2` (a parameter) | records of a value and its derivatives to third order, closed under sums, products and composition; the source's formulas are shown equal to such compositions; the density by the implicit and inverse function theorems; explicit bounds at small density, intermediate and mean value theorems |
| C80 | `Thermo/Fluid/{Duan,DuanOk,Props,Pure,Search,Gas}` | the pure-species part of `fluidPhase.c`: both sets of coefficients of both species, compressibility factor and fugacity coefficient with all derivatives the source writes out, the implicit derivatives of the volume, ideal gas, the join at 2000 bar, `propertiesOfPureH2O`/`CO2`, the averaging and bisection passes of the volume search (its tolerance tests and limits; the message it prints is the value `none`) | the derivative records of C79; the volume by the inverse function theorem; contraction of the averaging step from explicit bounds at small density; intermediate value theorem for existence at 2000 to 2200 bar |
| C81 | `Thermo/Fluid/{Mix,MixOk,MixGibbs,MixProps,MixEnds,MixHot}` | the mixture part of `fluidPhase.c` at a fixed temperature: the combining rules (the seven polynomials with the derivatives the source writes out), compressibility factor, fugacity coefficients and their composition and volume derivatives, the driver's implicit derivatives, the join at 2000 bar, `actFlu`, `gmixFlu` (without the third derivative), `vmixFlu` (composition and pressure derivatives). Temperature derivatives: C82. Its search loop: C84 | derivatives along a path of amounts with Euler's identity for the homogeneous polynomials; one residual energy; partial derivatives of smooth functions read off paths; the volume by the inverse function theorem |
| C82 | `Thermo/Fluid/{MixT,MixTProps,MixTStates}` | the first temperature derivatives of the mixture in `fluidPhase.c`: `DpowSum`, the mixed coefficients' temperature derivatives, those of the compressibility factor and of the fugacity coefficients, the driver's implicit `dvdt`, the join at 2000 bar, `smixFlu` (value and dx), `hmixFlu` (value), `vmixFlu` (dt). Second derivatives: C83. Not modelled: the second composition derivative of the entropy | partial derivatives in (T, V) at fixed composition, the implicit volume, the residual energy of C81 differentiated in T; existence by the inverse function theorem; the singular temperature by the intermediate value theorem |
| C83 | `Thermo/Fluid/{MixTT,MixTTProps}` | the second derivatives of the mixture in `fluidPhase.c`: `D2powSum`, the second temperature derivatives of the mixed coefficients, those in T and V of the compressibility factor and of the fugacity coefficients, the driver's implicit `d2vdt2`, `d2vdtdp`, `d2vdp2`, the join at 2000 bar, `cpmixFlu` (value and dx), `vmixFlu` (dt2, dtdp, dp2, dxdt, dxdp). Not modelled: what the program takes by finite differences (`cpmixFlu` dt, `vmixFlu` dx2, `smixFlu` dx2) and the third derivatives the coefficient functions also return | linear forms in the coefficients with their derivatives, the implicit volume of C82 differentiated once more, the properties differentiated as sums |
| C84 | `Thermo/Fluid/MixSearch` | the two loops of `duanDriver` (`fluidPhase.c` 1405-1434): averaging with its stops and bisection, in exact arithmetic, messages as no value; not modelled: rounding | the theorem on the pure species' loops (C80) for continuous maps, the averaging map shown to contract at low pressure by limits of the compressibility factor and its slope, the implicit volume of C82 through the solution |
| C85 | `Thermo/Miscibility`, `Thermo/MiscibilityHornblende`, `Thermo/MiscibilityGarnet`, `Thermo/MiscibilityLeucite`, `Thermo/MiscibilityFeldspar`, `Thermo/MiscibilityKalsilite` | the mixing functions of the nine two-component phases, of hornblende, garnet, leucite, feldspar and kalsilite (C24) put into the model of the test for unmixing (C74), with the clamping of site fractions at `DBL_EPSILON`; con and test functions of the phases; exact arithmetic | the energy without clamping is convex above the critical temperature (a polynomial inequality for each phase), clamping lowers it by less than the tolerance of the test; below it the second derivative is negative and the mean of two neighbouring energies falls. For garnet each pair's excess curvature is outweighed by its share of the ideal mixing (a quadratic form with a bound of degree four in the difference of the fractions). For leucite, whose energy may vanish at the copy's composition (and with it the tolerance), strict convexity pays for the clamping. For feldspar and kalsilite the statements are about the energy along a line at fixed anorthite (calcium and vacancies), not about the search. Hypothesis on traces: within 1e-5 of an end the clamping could exceed the tolerance |
| C32, C33, C39 | `Iface/Composition` | normalisation, setting and changing the composition | algebra |
| C34 | `Iface/Run` | the calculation thread's record of steps | invariant over histories |
| C35 | `Iface/Names` | file name search | search-loop correctness |
| C36 | `Iface/Columns` | spreadsheet columns: System, Liquid and Phases sheets | arithmetic; induction on the list of phases |
| C38 | `Lib/Nodes` | node list of the library | sorted-array search refines a map |
| C40 | `Lib/BufferNames`, `Lib/Strings` | property strings of the library | character-level matching |
| C41 | `Num/Chol` | Cholesky factorisation and back-substitution | strong induction over rows |
| C42 | `Num/Householder` | Householder transformation | algebra over finite sums |
| C48 | `Num/Constraint` | projection on linear constraints | orthogonality |
| C49, C50 | `Engine/Balance` | mass-balance constraint matrix, step application, buffered rows | sums over columns, rank argument |
| C51 | `Thermo/Redox` | ferric/ferrous speciation of the liquid | monotonicity, inverse functions |
| C53 | `Num/Modmrt` | Marquardt least squares (nash.c) | positive definiteness, descent |
| C55 | `Lib/Output` | library output of system and phase properties | sums; index arithmetic |
| C56 | `Lib/Modes` | library calculation modes and references | state-machine lemmas |

## Testing the theorems
`seeded/LOG.jsonl` records wrong versions of the model (one edit each, built in a scratch copy) and the theorems that
failed for them; where an edit was not noticed the theorem was tightened and the record says which.
