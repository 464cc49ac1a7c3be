{"id": "C01", "title": "Fractionating a solid phase neither creates nor destroys matter", "statement": "When a calculation step fractionates solids and/or fluids, for every oxide the moles removed from the system's bulk composition equal, oxide by oxide, the moles that appear in the fractionated reservoir, and every fractionated phase is left in the system with exactly MASSIN (1e-5) moles in its old proportions; phases that the user did not ask to fractionate (fluid when only solids are selected, solids when only fluids are selected) and phases present in less than MASSIN are untouched.", "quantifier": "every set of coexisting solids, every composition, every oxide stoichiometry table, every combination of the fractionate-solids / fractionate-fluids switches", "why_tests_cant": "the balance has to hold for every composition, number of coexisting immiscible copies and phase table; a test checks a few compositions", "anchors": ["sources/silmin.c:1726-1816 (UPDATE_SYSTEM)", "sources/interface.c:2185-2310 doBatchFractionation", "sources/library.c:2505 doBatchFractionation"]}
{"id": "C02", "title": "Fractionating a liquid conserves every oxide", "statement": "When liquid fractionation is on, each coexisting liquid with at least MASSIN moles is reduced to MASSIN moles with unchanged mole fractions, what is removed is added to the fractionated liquid, and for each oxide bulk + fractionated is the same before and after.", "quantifier": "every number of coexisting liquids, every liquid composition and stoichiometry", "why_tests_cant": "infinitely many compositions; rounding in tests hides a per-component omission", "anchors": ["sources/silmin.c:1874-1975", "sources/interface.c:2312-2375"]}
{"id": "C03", "title": "The end-of-fractionation clean-up of trace oxides does not conserve mass", "statement": "After fractionation any oxide (other than Fe2O3) with bulk moles strictly between 0 and MASSOUT, or negative, is deleted: its bulk entry becomes zero and every liquid component and solid end-member that contains it is set to zero. Because those components carry other oxides too, after the clean-up the bulk composition need no longer equal the sum over phases; oxides outside the threshold keep their bulk moles.", "quantifier": "all bulk compositions and phase assemblages", "why_tests_cant": "a counterexample needs a trace oxide just below the threshold in a component that contains another oxide; ordinary tests do not visit it", "anchors": ["sources/silmin.c:1818-1861", "sources/interface.c:2288-2306"]}
{"id": "C04", "title": "Nucleating a phase conserves the bulk composition", "statement": "When a saturated phase is added to an assemblage that has a liquid, the seed's moles are subtracted from the liquid through the end-member stoichiometry, so the sum over phases of each oxide is unchanged; the seed is halved until the liquid stays feasible and if that never happens before the seed is below ten machine epsilons the step stops with an add-phase error code and the assemblage is as before.", "quantifier": "every assemblage, every saturated phase and composition, every feasibility test outcome", "why_tests_cant": "the loop outcome depends on an arbitrary feasibility predicate and an unbounded family of compositions", "anchors": ["sources/silmin.c:676-852 (ADD_PHASE)"]}
{"id": "C05", "title": "Dropping a solid returns its whole content to the liquid", "statement": "When a solid whose moles fell below the drop threshold is removed while liquid is present, each of its end-members is added to the first liquid with its stoichiometry, its slot is closed up, the number of coexisting copies decreases by one, the other copies keep their compositions, and every oxide total is unchanged.", "quantifier": "every assemblage with any number of coexisting copies of the phase", "why_tests_cant": "ranges over all assemblages, positions of the dropped copy and compositions", "anchors": ["sources/silmin.c:1424-1500 (DROP_PHASE)"]}
{"id": "C06", "title": "Dropping a liquid conserves matter only while at most two liquids coexist", "statement": "With two coexisting liquids the disappearing one is merged into the other and every component total is unchanged. With three or more, closing the gap adds the shifted liquid to its predecessor instead of replacing it, so component totals grow.", "quantifier": "all liquid compositions and every number of coexisting liquids", "why_tests_cant": "needs three coexisting liquids and a drop in the middle; no regression input does that", "anchors": ["sources/silmin.c:1502-1591"]}
{"id": "C07", "title": "The phase chosen for nucleation has the largest affinity among the saturated, admitted phases", "statement": "If any admitted phase is supersaturated, the phase nucleated next is one whose affinity is the most negative among all admitted phases (first one in table order on ties) and a suppressed phase is never selected.", "quantifier": "every affinity vector, table length and suppression mask", "why_tests_cant": "minimality is a claim about every entry of an arbitrary vector", "anchors": ["sources/silmin.c:683-691"]}
{"id": "C08", "title": "Results are only reported for a state whose saturation was re-verified", "statement": "In every run of the equilibration state machine the output step is entered only directly after a saturation evaluation of the current assemblage that found nothing supersaturated and after a successful convergence test; phases are never added or dropped between that verification and the output.", "quantifier": "every sequence of numerical outcomes of the quadratic solve, linear search, convergence and saturation tests", "why_tests_cant": "the state machine's paths are unbounded; outcomes of numerical kernels are arbitrary", "anchors": ["sources/silmin.c:377-2203 silmin"]}
{"id": "C09", "title": "A converged run restores the constraint switches the user selected", "statement": "Runs that combine an fO2 buffer with a constant H, S or V constraint temporarily switch off the user's constraint and restore it; whenever such a run reaches its output step the fO2 path and constraint switches equal the ones the user set. If the run aborts (quadratic iterations exceeded) in the intermediate stage the switches are left altered and the stage marker is not reset.", "quantifier": "every sequence of outcomes of the stages", "why_tests_cant": "needs the interleaving of an abort with the multi-stage scheme", "anchors": ["sources/silmin.c:860-865", "sources/silmin.c:1207-1231"]}
{"id": "C10", "title": "Temperature, pressure and constraint paths step monotonically towards the end point and never overshoot", "statement": "On a batch path with positive increments each equilibration moves T (P) one full increment towards its stop value; exactly as many steps are taken as whole increments fit into the interval, T never passes the stop value and ends less than one increment away from it (on it exactly iff the increment divides the interval). Enthalpy, entropy and volume paths step likewise as long as the reference value does not become exactly zero.", "quantifier": "every start, stop and positive increment, in both directions", "why_tests_cant": "a claim about all real start/stop/increment triples and about the whole step sequence", "anchors": ["sources/silmin.c:1976-2118"]}
{"id": "C11", "title": "A zero or negative increment never terminates", "statement": "If the T increment is zero and start and stop differ by at least the tolerance, every call reports that another step is needed and T never changes. If the increment is negative, the run never ends either and T moves away from the stop value by one increment per step.", "quantifier": "every start/stop pair and every number of calls", "why_tests_cant": "non-termination cannot be observed by a finite test", "anchors": ["sources/silmin.c:1983-1996"]}
{"id": "C12", "title": "Assimilation adds exactly the requested mass in the requested number of increments in exact arithmetic", "statement": "With assimilation mass M>0 and n>=1 increments, the increments are equal (M/n of each assimilant component), they stop after exactly n steps, and each oxide's bulk gain is the assimilant's content of it. In IEEE binary64 the termination test can fail after n increments, and an extra increment is added (M = 1, n = 10). Without liquid, assimilating an absent solution phase leaves its total inconsistent with its end-members; a negative number of increments never ends.", "quantifier": "every mass, number of increments and assimilant composition", "why_tests_cant": "floating-point accumulation behaviour differs for different n; exact-arithmetic statement is over all n", "anchors": ["sources/silmin.c:2120-2184"]}
{"id": "C13", "title": "Copying a state reproduces everything a calculation reads", "statement": "Saving a state into a new structure reproduces every field (absent phases are reset to zero), leaves the original untouched and shares no memory with it as long as every fractionation/assimilation array is either in use or absent; a reservoir kept while its switch is off is shared. Restoring into an existing structure reproduces bulk, switches, scalars, the first liquid and every solid that is present; all liquids when the numbers of liquids differ or are at most one. When both have the same number n>1 of liquids the second and later ones keep the destination's old composition; a phase absent from the source but present in the destination keeps a stale amount; restoring with the fractionation switches cleared keeps the fractionated reservoirs; assimilant components beyond nc+npc are lost.", "quantifier": "every pair of states", "why_tests_cant": "the failing case needs equal liquid counts >1 with different compositions", "anchors": ["sources/silmin_support.c:410-725 copySilminStateStructure"]}
{"id": "C14", "title": "The reported liquid mass is the sum of the masses of the liquids", "statement": "After the bookkeeping update the reported liquid mass equals the sum over liquids and oxides of moles times molecular weight, and if every phase is stoichiometric it equals bulk mass minus solid mass.", "quantifier": "every assemblage", "why_tests_cant": "a sum identity over arbitrary sized assemblages", "anchors": ["sources/silmin_support.c:1160-1209 updateBulkADB"]}
{"id": "C15", "title": "A rejected liquid addition leaves the system unchanged", "statement": "When the trial that converts part of the solids to a new liquid is rejected, all solid and liquid amounts are put back exactly; when it is accepted each oxide total is unchanged.", "quantifier": "every assemblage, trial step and acceptance outcome", "why_tests_cant": "all assemblages and all failing components", "anchors": ["sources/silmin_support.c:2022-2122 addOrDropLiquid"]}
{"id": "C16", "title": "Energy/volume corrections are bounded but do not report whether they met the target", "statement": "The Newton correction of T (constant H or S) and P (constant V) makes between 1 and 50 passes and stops at the first pass whose residual is within ten machine epsilons of the target; stopping earlier than 50 means the residual before the last update was that small. The residual is that of the whole system provided the first liquid contains every component; a component present only in a second liquid enters with a stale property. With a constant heat capacity the result is exact after two passes; with slopes within a factor two each pass shrinks the residual. Nothing is reported when 50 passes were not enough: a system whose property does not respond is moved 50 steps and returned as if corrected.", "quantifier": "all component property functions, liquids, solids, targets and starting points", "why_tests_cant": "arbitrary nonlinear property functions", "anchors": ["sources/silmin_support.c:1729", "sources/silmin_support.c:1822", "sources/silmin_support.c:1916"]}
{"id": "C17", "title": "Find Liquidus brackets the liquidus", "statement": "If there is a temperature below which the melt is supersaturated and above which it is not, and the search starts between 550 and 2450 K, Find Liquidus returns after a number of calls linear in the distance, reports success, stops within 0.2 degrees of it and is ready for another search; with solids or several liquids present it refuses without changing anything.", "quantifier": "every start temperature and every liquidus temperature", "why_tests_cant": "a claim over a continuum of start and liquidus temperatures", "anchors": ["sources/liquidus.c:121-343 liquidus"]}
{"id": "C18", "title": "Find Liquidus has no temperature guard after its first move and leaks its state on a range error", "statement": "The limits 500 and 2500 K are tested only on the first move: with a melt that is supersaturated at every temperature the search climbs without bound and never returns. After a range error the next call resumes in the middle of the old search instead of starting again.", "quantifier": "every start temperature and number of calls; every history of calls", "why_tests_cant": "non-termination and history dependence across calls", "anchors": ["sources/liquidus.c:285-320"]}
{"id": "C19", "title": "1-D minimiser never returns a worse point and respects its evaluation budget", "statement": "min1d evaluates the function at most budget+1 times before its final evaluation, and on success the reported minimum value does not exceed the value at the initial guess and is the value of the function at a point it visited.", "quantifier": "every function, start, step and budget", "why_tests_cant": "arbitrary objective functions", "anchors": ["sources/nash.c:119-203 min1d"]}
{"id": "C20", "title": "Variable-metric minimiser descends and keeps its metric symmetric", "statement": "vmmin's function value never increases from one accepted point to the next, its Hessian approximation stays symmetric, satisfies the secant condition after each update and stays positive definite, and it gives up after 10000 iterations.", "quantifier": "every objective, gradient, dimension and start", "why_tests_cant": "arbitrary functions and dimensions", "anchors": ["sources/nash.c:205-290 vmmin"]}
{"id": "C21", "title": "Oxygen-fugacity buffer derivatives are the derivatives of the buffer", "statement": "For every buffer and every T>0 the reported first and second T and P derivatives of log10 fO2 are the derivatives of the reported log10 fO2 (for the COH buffer away from the high-pressure corner), except that with no buffer the pressure derivative reported is 0.110/T although log10 fO2 is constant, and for COH above 67201 bars the pressure derivatives omit that the low-pressure polynomial is frozen.", "quantifier": "every T>0, P, and buffer code", "why_tests_cant": "derivative correctness is a limit statement for all T, P", "anchors": ["sources/gibbs.c:213-365"]}
{"id": "C22", "title": "Offsets on the integer FMQ buffers ignore the user's fractional offset", "statement": "The user's fO2 offset shifts the reported log10 fO2 by exactly that offset for the HM, NNO, FMQ, COH and IW buffers at every T and P, and has no effect for the FMQ+n / FMQ-n buffers, which differ from FMQ without offset by exactly n.", "quantifier": "every T, P, offset and buffer code", "why_tests_cant": "all real offsets and conditions", "anchors": ["sources/gibbs.c:244-267"]}
{"id": "C23", "title": "Extensive gradients and Hessians follow from intensive ones by the chain rule", "statement": "Given the molar property with its first and second derivatives in the independent compositional variables and the first and second derivatives of those variables in moles, the routines return the true first and second derivatives in moles of total moles times the molar property, and the Hessian is symmetric.", "quantifier": "every number of components and variables, every smooth property", "why_tests_cant": "derivative identity for arbitrary functions and dimensions", "anchors": ["sources/gradient_hessian.c:206-235 intenToExtenGradient intenToExtenHessian"]}
{"id": "C24", "title": "Solution models report consistent chemical potentials", "statement": "For each modelled mineral solution the reported end-member chemical potentials satisfy Euler's relation (mole-fraction weighted sum equals the molar Gibbs energy of mixing), the activity is exp(mu/RT), and the reported composition derivatives of G are its derivatives. Where end members order by themselves (spinel, ortho-oxide, rhombohedral oxide, melilite) the properties are relative to the pure end members in their own equilibrium ordering states. For the rhombohedral oxides, which can have several ordering states, this holds along every continuous branch of regular solutions of the ordering equations (below 2044 K). For melilite it holds (above 800 K) at the equilibrium ordering state; where the iteration for that state stops at its lower bound instead (soda-rich melilites, see C61), the reported composition derivative for soda melilite is not the derivative of the reported energy of mixing.", "quantifier": "every composition in the interior, T>0 and P", "why_tests_cant": "derivative and Euler identities over a continuum", "anchors": ["sources/leucite.c", "sources/feldspar.c", "sources/garnet.c", "sources/biotite.c", "sources/olivine-sx.c", "sources/kalsilite.c", "sources/nepheline.c", "sources/olivine.c", "sources/cummingtonite.c", "sources/amphibole.c", "sources/albite.c", "sources/spinel.c", "sources/ortho-oxide.c", "sources/rhombohedral.c", "sources/melilite.c"]}
{"id": "C25", "title": "Composition conversions are consistent", "statement": "For each modelled solution the conversion moles -> independent variables -> mole fractions gives the same mole fractions as the direct conversion, they sum to one, they are unchanged when all moles are scaled, and the Jacobian returned is the derivative of the conversion.", "quantifier": "every mole vector with non-zero total", "why_tests_cant": "identity over all mole vectors", "anchors": ["sources/leucite.c conLeu", "sources/feldspar.c conFld", "sources/garnet.c conGrn"]}
{"id": "C26", "title": "A formula's molecular weight is the sum of its elements' weights", "statement": "Every well-formed formula (elements with optional numbers, groups in brackets with optional multiplier) is read as written: each element's entry grows by the number of its atoms, multipliers applying to their group only, and the weight returned is the sum over elements of count times atomic weight; all formulas of the oxide, liquid and solid tables are of this form. For any accepted string the weight equals that of the elements booked. A rejected string may leave part of its elements booked.", "quantifier": "every formula string and every element table", "why_tests_cant": "strings are unbounded", "anchors": ["sources/melts_support.c:746-830 formulaToMwStoich"]}
{"id": "C27", "title": "Thread-specific storage is per thread and counts its users", "statement": "In the thread emulation a value stored for a key by one thread is what that thread reads back until it stores again or cleans up, other threads never see it, a key's use count is one plus the number of threads holding a value, and cleaning up calls the destructor exactly once per held value.", "quantifier": "every sequence of create/set/get/cleanup operations by every thread", "why_tests_cant": "arbitrary histories and thread interleavings", "anchors": ["sources/mthread.c:66-150", "sources/melts_threads.c"]}
{"id": "C28", "title": "Cleaning up a single-holder key retains it; repeated creation eventually fails", "statement": "A created key is never freed: the count of a created key never returns to zero, so at most MTHREAD_DATAKEYS_MAX keys can ever be created and creation returns EAGAIN afterwards without corrupting other keys.", "quantifier": "every history of operations", "why_tests_cant": "exhaustion over unbounded histories", "anchors": ["sources/mthread.c:66-101"]}
{"id": "C29", "title": "Rational approximation terminates and meets its accuracy up to rounding", "statement": "For every positive number in range and every error bound frac terminates and returns a number between 0 and the bound together with a fraction in lowest terms whose relative error is at most one and a half times the bound (the documented bound itself can be exceeded because the comparison uses a rounded value); -1 is returned exactly for arguments out of range; with bound 0 the number is reproduced exactly. (Exact arithmetic, no int overflow.)", "quantifier": "every v and error", "why_tests_cant": "all reals", "anchors": ["sources/frac.c"]}
{"id": "C30", "title": "Suppressing phases affects exactly the selected phases", "statement": "For every history of interface calls (create, suppress, clear, others) the phases the engine considers are exactly those of the phase table whose index is not among the keys of the last suppressed map: each suppression replaces the previous one, clearing re-admits all, keys that belong to no phase change nothing, the liquid stays allowed, and without a state the calls do nothing.", "quantifier": "every phase table and list of names", "why_tests_cant": "every table and list", "anchors": ["src/melts_interface.cpp:236-269 SetSuppressedPhases ClearSuppressedPhases"]}
{"id": "C31", "title": "Run-mode selection is exclusive", "statement": "After selecting a run mode at most one of the isenthalpic, isentropic, isochoric switches is on, it is the selected one, and an unknown mode selects isobaric/isothermal with none on.", "quantifier": "every mode string and previous state", "why_tests_cant": "all strings, all histories", "anchors": ["src/melts_interface.cpp:289-312 SetMode"]}
{"id": "C32", "title": "Normalising a composition makes it sum to 100 and keeps proportions", "statement": "Normalisation yields a composition whose sum is 100 with all ratios preserved when the sum is not zero, is idempotent, and with a zero sum produces undefined (not-a-number) entries.", "quantifier": "every composition", "why_tests_cant": "all real vectors", "anchors": ["src/melts_interface.cpp:92-107 Normalize"]}
{"id": "C33", "title": "Setting the composition gives consistent moles, mass and liquid components", "statement": "After setting a composition in grams each oxide's bulk moles times its molecular weight is the given grams, liquid mass is their sum, and converting the liquid components back to oxides returns the bulk moles; but the recorded oxygen is only the last liquid component's contribution.", "quantifier": "every composition and every invertible oxide/component table", "why_tests_cant": "all vectors and tables", "anchors": ["src/melts_interface.cpp:369-417 SetComposition"]}
{"id": "C34", "title": "Each completed step is recorded exactly once", "statement": "During an equilibration run the number of recorded steps never exceeds the requested number, each successful step of a fresh run is recorded once and in order, and a failure stops the run, sets the failure flag and records nothing after it.", "quantifier": "every sequence of step outcomes and stop requests, every requested number of steps", "why_tests_cant": "arbitrary outcome sequences", "anchors": ["src/melts_interface.cpp:795-844 Equilibrate"]}
{"id": "C35", "title": "Saving never overwrites an existing file", "statement": "The name chosen when saving results is not the name of an existing file, is the requested name if that is free, and otherwise is the first free 'name (k)'.", "quantifier": "every set of existing files and every requested name", "why_tests_cant": "every directory content", "anchors": ["src/xlsx_writer.cpp:40-80", "src/melts_interface.cpp:927-945"]}
{"id": "C36", "title": "Spreadsheet columns", "statement": "In the System sheet distinct quantities are written in distinct columns and every number is under its own label, except that the mass of assimilated liquid is written over the last assimilated phase (or over the assimilant temperature); the tables of the Liquid sheet do not overlap, and in the Phases sheet the third table overlaps the second exactly if a step fractionates too many phases.", "quantifier": "every number of oxides, phases, fractionated and assimilated phases", "why_tests_cant": "arbitrary table sizes", "anchors": ["src/xlsx_writer.cpp:58-413"]}
{"id": "C37", "title": "Adding assimilants accumulates their mass", "statement": "After any sequence of additions of solid assimilants the total assimilant mass is the sum of the added masses and the moles of each phase are the sum of the contributions; re-adding the liquid assimilant replaces the previous liquid and its mass.", "quantifier": "every sequence of additions", "why_tests_cant": "arbitrary histories", "anchors": ["src/melts_interface.cpp:425-519 AddAssimilant ClearAllAssimilants"]}
{"id": "C38", "title": "Nodes of the library are isolated", "statement": "The library keeps one state per node index: processing or configuring one node never alters another node's state, the first use of an index creates it and later uses find the same one, for every order of indices.", "quantifier": "every history of node operations", "why_tests_cant": "arbitrary sequences of node indices (binary search over a sorted array)", "anchors": ["sources/library.c:646-700 meltsprocess_", "sources/library.c:1293-1320 meltssetsystemproperty_"]}
{"id": "C39", "title": "Changing a node's bulk composition keeps phases and bulk in balance", "statement": "When a node is processed again with a new bulk composition the change is put entirely in the first liquid: bulk equals the new composition, the sum over phases still equals the bulk, and the liquid mass changes by the change in bulk mass.", "quantifier": "every node state and new composition", "why_tests_cant": "all states and compositions", "anchors": ["sources/library.c:690-722"]}
{"id": "C40", "title": "System-property strings of the library: what they set, and that 'fractionate none' sets nothing", "statement": "For every state and string, in any case of letters: 'mode: fractionate solids|liquids|fluids' switches on exactly the named switch; 'mode: fractionate none' changes nothing (only four extra characters in between make it work); 'log fo2 path: X' sets the path named X and nothing else, the documented 'qfm' and 'log fo2 delta: ...' are ignored; 'suppress: L' removes exactly the first phase labelled L, 'suppress: none' readmits every phase.", "quantifier": "every state, phase table, string of up to 134 characters and stack content", "why_tests_cant": "all strings and prior states", "anchors": ["sources/library.c:1293-1384 meltssetsystemproperty_"]}
{"id": "C41", "title": "Cholesky factorisation and back-substitution solve the system", "statement": "When the factorisation does not report singularity the lower triangle L satisfies L L^T = A and back-substitution returns the solution of A x = b.", "quantifier": "every symmetric positive definite matrix of every size", "why_tests_cant": "all sizes and entries", "anchors": ["sources/nash.c:412-475 Choldcmp Cholback"]}
{"id": "C42", "title": "Householder transformations are orthogonal", "statement": "The transformation constructed preserves the Euclidean norm of every vector it is applied to, zeroes the designated entries of its pivot vector, and applying it twice is the identity.", "quantifier": "every pivot, range and vector", "why_tests_cant": "all dimensions and vectors", "anchors": ["sources/lawson_hanson.c:290-442"]}
{"id": "C43", "title": "Below the solidus a disappearing phase is redistributed among the remaining solids or its matter is lost", "statement": "When a solid (or the last liquid) disappears from an assemblage without liquid its oxides are redistributed over the remaining solids: if the redistribution is accepted and exact every oxide total is unchanged; if it is refused the verdict is ignored and every oxide total falls by exactly the content of the phase that disappeared. It is always refused when the first of several coexisting copies of a solution disappears.", "quantifier": "every assemblage, threshold and solver outcome", "why_tests_cant": "all assemblages and all solver outcomes", "anchors": ["sources/silmin.c:1444-1469", "sources/silmin.c:1561-1585", "sources/silmin_support.c:addOrDropLiquid"]}
{"id": "C44", "title": "An abandoned nucleation below the solidus leaves traces", "statement": "If nucleating liquid in a liquid-free assemblage is abandoned, the state keeps the composition of the last liquid tried and a non-zero liquid mass although the solids were not reduced; if nucleating a solution is abandoned its moles stay non-zero while it is not counted as present, and a later saturation evaluation never considers that phase again.", "quantifier": "every assemblage and every solver that keeps refusing", "why_tests_cant": "needs all refusing solvers and all later evaluations", "anchors": ["sources/silmin.c:737-815", "sources/evaluate_saturation.c:321-326"]}
{"id": "C45", "title": "A phase is nucleated at most twice per equilibration", "statement": "During one equilibration of the engine at fixed bulk composition, no solid phase is added to the assemblage more than twice, however often phases dissolve, exsolve or the minimisation restarts (the in/out cycle limit works).", "quantifier": "every equilibration, every sequence of outcomes of the numerical minimisation, every phase", "why_tests_cant": "The order of appearances and disappearances depends on the numerics; a test sees one history.", "anchors": ["sources/silmin.c: silmin (CHECK_SATURATION, ADD_PHASE, DROP_PHASE, REASSEMBLE_SOLUTION)", "sources/evaluate_saturation.c: evaluateSaturationState, CYL"]}
{"id": "C46", "title": "An unconverged isenthalpic/isentropic/isochoric stage is silently replaced by an unconstrained solution", "statement": "When an energy constraint is combined with an oxygen buffer the engine solves in stages. If the constrained stage never converges, the engine does not report a failure: it proceeds with the assemblage that the previous stage computed with the energy constraint switched off.", "quantifier": "every run of the staged scheme, every residual history of the constrained stage", "why_tests_cant": "Requires a minimisation that fails to converge for more than 100 iterations in one specific stage.", "anchors": ["sources/silmin.c: silmin (REASSEMBLE_SOLUTION 1127-1231)"]}
{"id": "C47", "title": "A minimisation step is feasible but not necessarily a descent step", "statement": "The length of each minimisation step is found by trying 1, 1/2, 1/4, ... until a feasible one is met and then minimising the thermodynamic potential along the direction. The step applied is feasible and its potential does not exceed that of the first feasible trial; or every trial down to machine epsilon was infeasible and an unchecked step below epsilon is applied. The potential is never compared with that of the state before the step, so it may rise; and when the evaluation budget is exceeded the redox correction applied belongs to a different trial step.", "quantifier": "every objective (feasible region, values), tolerance, budget and starting step", "why_tests_cant": "depends on the shape of an arbitrary potential along an arbitrary direction", "anchors": ["sources/silmin.c LINEAR_SEARCH", "sources/nash.c min1d", "sources/linear_search.c linearSearch"]}
{"id": "C48", "title": "Linear constraints are met exactly by every step", "statement": "Whenever the rows of the constraint matrix are linearly independent, the vector returned by the constrained least-squares stage satisfies every constraint exactly, whatever the quadratic solver returns for the free part and whatever uninitialised storage contains; with a zero right-hand side a step of any length along it changes no constrained combination.", "quantifier": "all matrices with independent rows, all right hand sides, all results of the quadratic solver", "why_tests_cant": "infinitely many matrices; the solver's output is data-dependent", "anchors": ["sources/silmin.c REASSEMBLE_SOLUTION", "sources/lawson_hanson.c householderRowRow householderRowCol"]}
{"id": "C49", "title": "A minimisation step conserves matter", "statement": "A minimisation step of length lambda multiplies the imbalance of each oxide (bulk minus sum over phases) by 1 - lambda, so a balanced assemblage stays balanced; under an oxygen buffer all oxides but FeO and Fe2O3, and the total iron FeO + 2 Fe2O3, are unchanged. The applied step leaves non-negative amounts of every solid.", "quantifier": "every assemblage, step length, solver result", "why_tests_cant": "depends on the solver's result and on the step length", "anchors": ["sources/equality_constraints.c:203-345", "sources/silmin.c:1031-1099,1281-1309", "sources/linear_search.c:205-262"]}
{"id": "C50", "title": "With an oxygen buffer both iron oxides must be present", "statement": "With an oxygen buffer the number of constraint rows written equals the number allocated exactly when both FeO and Fe2O3 have non-zero bulk moles. If neither is present, or only the one first in the oxide table, one more row than allocated is written; if only the last one, a row is addressed with index -1.", "quantifier": "every bulk composition, number of liquids, position of the iron oxides in the table", "why_tests_cant": "compositions without one of the iron oxides under a buffer are not in the tests and the overflow is silent", "anchors": ["sources/equality_constraints.c:203-313"]}
{"id": "C51", "title": "Setting the liquid redox state and reading it back agree", "statement": "Setting the ferric/ferrous ratio of a liquid for a given log10 fO2 and then computing log10 fO2 from the composition returns the given value, at every T and P and for every composition with iron; conversely re-setting at the computed value changes nothing. Total iron and all other oxides are unchanged, both iron oxides are positive, ferric iron strictly increases with fO2, and an iron-free composition reads back log10 fO2 = 0.", "quantifier": "every composition, T, P, fO2, liquid model", "why_tests_cant": "continuous domain", "anchors": ["sources/liquid.c:7850-8008 conLiq", "sources/liquid_v34.c:103-215", "sources/liquid_CO2.c:2706-2850"]}
{"id": "C53", "title": "The nonlinear least-squares solver never makes the sum of squares worse and always stops", "statement": "Started at a point where all residuals are computable, the Marquardt solver used to estimate saturated-phase compositions reports a minimum that is no larger than the sum of squares at the start and is attained at a computable point; every trial is the best point so far plus the exact solution of the damped normal equations, which are never singular and point downhill unless the gradient vanishes; success means the last correction is within the tolerance in every component of the point whose sum of squares is the reported minimum; a stationary starting point is returned unchanged as a success, even if its residuals are not small; and it returns after at most maxIter residual evaluations whatever the residual functions do.", "quantifier": "every residual system, Jacobian, starting point, tolerance and iteration limit", "why_tests_cant": "quantifies over all residual functions and run histories", "anchors": ["sources/nash.c:297-401 modmrt"]}
{"id": "C54", "title": "Wet liquidus search restores the phase selection", "statement": "The water-saturated liquidus search works with only the fluid admitted, and puts the user's phase selection back if every equilibrium calculation it makes succeeds; if one fails, everything but the fluid stays suppressed while the search reports success.", "quantifier": "every phase table, every phase selection, every sequence of outcomes of the inner calculations", "why_tests_cant": "The number and outcome of the inner calculations depend on the composition; tests cover a few.", "anchors": ["sources/liquidus.c:346-411 findWetLiquidus"]}
{"id": "C55", "title": "Reported system properties are the sum over the reported phases - except four volume derivatives", "statement": "For every assemblage the library reports, G, H, S, V, Cp, dCp/dT and dV/dT of the system are the sums over the reported phases, volume fractions sum to one, oxide grams of the phases sum to those of the system, and densities are mass over volume; dV/dP, d2V/dT2, d2V/dTdP and d2V/dP2 of the system are wrong by the difference to dV/dT of every solution phase, and the density of two immiscible liquids counts the first one's mass twice.", "quantifier": "every assemblage, property values and compile option", "why_tests_cant": "all assemblages and all values of the mixing models", "anchors": ["sources/library.c:866-1125 meltsprocess_"]}
{"id": "C56", "title": "An isenthalpic library call reaches the requested enthalpy only if an enthalpy call came before", "statement": "A mode 2 call whose predecessor left an enthalpy ends with the reference enthalpy equal to the requested one after at most one step; without one (first call of a node, or after any mode 1 call) no enthalpy is imposed and the run is a single equilibration at the given temperature. The value handed back is the starting point of the next call, in the same units.", "quantifier": "every state, requested value, temperature, pressure and outcome of the equilibrations", "why_tests_cant": "every sequence of modes and values", "anchors": ["sources/library.c:724-778, 1136-1161 meltsprocess_", "sources/silmin.c:1983-2118"]}
{"id": "C57", "title": "A minimisation re-imposes its constraints before every quadratic step and always ends", "statement": "While an energy constraint or an oxygen buffer is active, each quadratic model is built immediately after the constraints were re-imposed. A minimisation in which no phase is dropped ends within 2880 calls of the engine's step function, whatever the numerics deliver: it goes on to the convergence test or stops the run with an error.", "quantifier": "every sequence of residual norms, line-search results and oracle answers, every choice of constraints and buffer", "why_tests_cant": "a test follows one sequence of numerical outcomes; endless loops occur for outcomes nobody has seen", "anchors": ["sources/silmin.c:854-1591 (PROJECT_CONSTRAINTS..DROP_PHASE)", "sources/silmin.c:1156-1231"]}
{"id": "C58", "title": "The conversion tables the program computes conserve every element", "statement": "At start-up the program derives, from the formulas of its oxide, liquid and solid tables, the matrices converting liquid components to oxides, oxides to liquid components, and each solid to oxides and to liquid components, by least squares with small entries set to zero. Any solution of these least-squares systems conserves the number of atoms of every element; the molecular weight of every solid equals the weight of the oxides it is converted to; converting a solid to liquid components and then to oxides gives its oxides; oxides to liquid and liquid to oxides are inverse to each other; the result does not depend on which solver or threshold (up to 1/16) is used. For every solution phase the number of end members equals the number of component rows following it, at least two, and one more than its number of composition variables; every pure phase has none.", "quantifier": "every row of the oxide, liquid and solid tables of both the MELTS and the pMELTS model, every element, every solution of the normal equations, every threshold up to 1/16", "why_tests_cant": "a test compares finitely many numbers produced by one solver with a tolerance; it cannot show that every solution of the systems is exact, nor that conservation holds for every row and element of all tables", "anchors": ["sources/melts_support.c:266-507 (InitComputeDataStruct)", "includes/liq_struct_data.h", "includes/sol_struct_data.h"]}
{"id": "C52", "title": "An analysis of a solid solution is converted to the amounts of the end-members it was made of", "statement": "A user who gives the library the oxide analysis of a mineral gets it converted to end-member amounts. If the analysis is that of a mixture of the mineral's end-members, the amounts computed are those of the mixture, for olivine, garnet, melilite, cummingtonite, biotite, feldspar, nepheline, kalsilite, leucite, fluid and alloy in any amounts, for spinel, ilmenite-hematite and pseudobrookite whenever the amount of the ferric end-member is not negative, for the pyroxenes through the library whenever neither kind of iron is negative, and through the pyroxenes' own functions in exactly the stated cases. For hornblende this fails: magnesium is taken for pargasite.", "quantifier": "every solid solution of the three models' tables and every vector of rational end-member amounts", "why_tests_cant": "a test tries a few analyses; negative amounts, the ferric/ferrous boundary cases and all mixtures are an infinite set", "anchors": ["sources/library.c:1541-1592,2030-2078 (getMeltsPhaseProperties, getMeltsSaturationState)", "sources/olivine.c:2559 conOlv and the FIRST->SECOND branch of the other con* functions"]}
{"id": "C59", "title": "The oxygen potential of the liquid is RT ln fO2 of its ferric/ferrous ratio, with exact derivatives", "statement": "For every liquid, temperature and pressure the chemical potential of O2 reported (relative to pure O2) is RT ln fO2 at the log10 fO2 its ferric/ferrous ratio is read as; after the redox state has been set for a buffer it is RT ln fO2 of the buffer. The first and second derivatives reported in the moles of the liquid components, temperature and pressure, and the mixed ones, are the derivatives of that potential (in the versions with a high-pressure branch: except in pressure at exactly 50000 bar). If the liquid lacks FeO or Fe2O3 everything reported is zero.", "quantifier": "every composition (any number of components and any conversion matrix), every T other than 0, every P, both versions of the code", "why_tests_cant": "finite differences at a few points cannot establish exact derivatives for all compositions and conditions", "anchors": ["sources/liquid.c:9718-9935 muO2Liq", "sources/liquid_CO2.c:4412 muO2Liq_CO2", "sources/liquid_CO2_H2O.c:4412 muO2Liq_CO2_H2O", "sources/liquid_v34.c:745 muO2Liq_v34"]}
{"id": "C60", "title": "Standard-state properties of a solid agree with each other", "statement": "For a solid end member the function that returns standard-state properties at a temperature and pressure reports eleven numbers (Gibbs energy, enthalpy, entropy, volume, heat capacity and six derivatives) that are mutually consistent: g = h - T s, s = -dg/dT, v = dg/dP, cp = dh/dT = T ds/dT, ds/dP = -dv/dT, and every reported derivative is the derivative of the reported quantity, for every parameter record, both heat-capacity formulations and the Berman and Vinet equations of state, and for the composite and order-disorder end members, at every temperature that is not a transition. Across a first-order transition the Gibbs energy is continuous while enthalpy and entropy jump by the tabulated amount. For the two gases the exact deviation is stated: oxygen reports a volume that is not the pressure derivative of its Gibbs energy, and the entropy of sulfur gas does not integrate its heat capacity.", "quantifier": "all reference records (heat capacity, transition and equation-of-state parameters), all temperatures above zero except the finitely many switches, all pressures, every converged volume solver", "why_tests_cant": "The eleven closed forms are written by hand; a finite difference at a few points cannot establish an identity between them for all parameters and all temperatures and pressures.", "anchors": ["sources/gibbs.c: gibbs, intEOSsolid", "includes/silmin.h: ThermoRef, ThermoData"]}
{"id": "C61", "title": "The internal ordering state of a solid solution exists, is the equilibrium one and is reached through feasible states", "statement": "For a solid solution with cations ordering over sites, at every temperature, pressure and bulk composition between the end members there is an ordering state with every site fraction positive at which the Gibbs energy is lowest; where the energy is convex in the ordering state (for cummingtonite, above 309 K) it is the only state that satisfies the equations the program solves, so whatever the iteration converges to is the equilibrium. Every iterate of the iteration keeps all site fractions within rounding of the interval from zero to one, whatever search directions the linear solver returns, and an iterate the iteration does not move is a solution of the equations. A solid solution with two structures (amphibole) is reported in the structure of lower Gibbs energy, and changes structure at one pressure only. For olivine uniqueness holds above 451 K and every iterate stays feasible when the initial guess is, which it is for iron-magnesium-calcium olivines with nonnegative end-member amounts; beyond the join monticellite-fayalite the guess is infeasible and the iteration stops at it. For spinel uniqueness holds above 885 K (for the pure end members hercynite above 700 K, spinel above 560 K, magnetite always), the initial guess is feasible for every composition with nonnegative cation totals, and so is every iterate. For ortho-oxide uniqueness holds above 482 K (its pure end members pseudobrookite above 222 K, ferropseudobrookite and karrooite above 361 K) and the initial guess is feasible for every mixture of the end members. The rhombohedral oxides order convergently: an ordering state of least energy exists at every temperature, complete disorder always solves the equations, and so does the mirror image (sites exchanged) of every solution, with the same energy. Their pure end members ilmenite, geikielite and pyrophanite have exactly three solutions below 2044 K, of which the one with positive order is unique and has the least energy, and only disorder above 2045 K; the Newton iteration for them, started at 0.9, converges to the positively ordered state between 389 and 2044 K and never approaches it below 388 K. For melilite the energy is not convex in the ordering state, but above 800 K there is still exactly one solution of the ordering equation (likewise for pure gehlenite), and the initial guess and the returned state are feasible; the iteration, however, keeps the ordering parameter above minus half the amount of soda melilite, and wherever the energy still rises at that bound the equilibrium state lies below it and is never found (for example with 60 % gehlenite and 30 % soda melilite at 1400 K).", "quantifier": "all temperatures, pressures, compositions between the end members, all ordering states, all search directions and numbers of iterations", "why_tests_cant": "The claim is about every real composition, temperature and pressure and about uniqueness among all ordering states; a test sees one converged state at a time and cannot tell whether another exists or whether the iteration can leave the feasible region.", "anchors": ["sources/cummingtonite.c: order", "sources/cummingtonite.c: gmixCum", "sources/nepheline.c: order", "sources/albite.c: order", "sources/amphibole.c: order", "sources/amphibole.c: isClino", "sources/olivine.c: order", "sources/spinel.c: order", "sources/spinel.c: pureOrder", "sources/ortho-oxide.c: order", "sources/ortho-oxide.c: pureOrder", "sources/rhombohedral.c: order", "sources/rhombohedral.c: pureOrder", "sources/melilite.c: order", "sources/melilite.c: pureOrder"]}
{"id": "C62", "title": "Inputs that are saved can be loaded back", "statement": "Saving the inputs of a run without assimilant and loading the file gives back the title, every oxide to the fourth decimal, temperature, pressure and the increments of the mode in use to the second decimal, the offset of the oxygen buffer to the first, and exactly the named buffer path, the suppressed phases and every switch, whatever the settings were before; inputs with no more decimals than the file come back exactly, and saving and loading again changes nothing more. Stated exceptions of the code: a path with a preset offset comes back as plain FMQ, a temperature below 0 C as 0 C, and assimilants: no file loads a liquid assimilant, and a row of the table of solids whose label an earlier row has is never loaded.", "quantifier": "all one-line titles, compositions, temperatures, pressures, increments, offsets, sets of suppressed phases, switches, and (for the exceptions about assimilants) all files", "why_tests_cant": "The claim is about every text of title and every number that can be formatted and parsed again, and the searches in a line are by substring, so a collision between any key, label and number would break it; a test tries some files.", "anchors": ["src/melts_interface.cpp: SaveMeltsInputData", "src/melts_interface.cpp: LoadFromFile", "src/melts_interface.cpp: GetWords", "src/e_utility.cpp: DoubleAsString"]}
{"id": "C63", "title": "Standard-state properties of liquid components are derivatives of one Gibbs energy", "statement": "For each liquid component the reported G, H, S, V, Cp, dCp/dT and the derivatives of V satisfy G = H - TS and are the derivatives of the reported G with respect to temperature and pressure, in every rhyolite-MELTS version and in pMELTS, with these exceptions, which the code has: with the Kress equation of state the reported volume is too large by half the second pressure derivative of the table; liquid CaCO3 reports an enthalpy without its pressure term, so G is not H - TS away from one bar; in pMELTS below one bar, or for a component without compressibility, G does not depend on pressure although a volume is reported. At the fusion temperature and one bar the liquid differs from the solid by the tabulated entropy of fusion and has the same Gibbs energy. The volume equation of pMELTS has exactly one solution at every positive pressure.", "quantifier": "for every component row, calculation mode, temperature above zero other than the listed switch temperatures, and pressure", "why_tests_cant": "the derivative relations are identities between real functions over a continuum of temperatures and pressures; a finite difference at sampled points cannot distinguish a wrong third derivative from rounding", "anchors": ["sources/gibbs.c: gibbs (870-1609)", "sources/gibbs.c: getCaCO3properties", "include/melts/liq_struct_data.h: meltsLiquid, pMeltsLiquid"]}
{"id": "C64", "title": "Silica polymorphs, metals and enstatite have consistent standard states; tridymite's energy jumps", "statement": "For quartz, tridymite, cristobalite, solid and liquid iron and nickel, and enstatite the reported G, H, S, V, Cp, dCp/dT and derivatives of V satisfy G = H - TS and are derivatives of one Gibbs energy, away from the transition temperature at the pressure in hand (for quartz and cristobalite it moves with pressure). Enstatite reports the polymorph of least Gibbs energy. With the constants of the table, heating tridymite through 383 K raises its Gibbs energy by more than 43 J at every pressure from one bar up.", "quantifier": "for every temperature above zero other than the transition temperature, every non-negative pressure and every table row", "why_tests_cant": "identities between real functions over a continuum of temperatures and pressures; the discontinuity is a statement about a limit", "anchors": ["sources/gibbs.c: gibbs (1702-2324)", "sources/gibbs.c: fe_metal, fe_liquid, ni_metal, ni_liquid", "include/melts/sol_struct_data.h"]}
{"id": "C65", "title": "Mixing properties and activities of the silicate liquid are derivatives of one Gibbs energy", "statement": "In the rhyolite-MELTS 1.0 and pMELTS liquid the reported entropy, volume and enthalpy of mixing are -dG/dT, dG/dP and G+TS; the reported composition gradients and second derivatives of G, S and V are the derivatives of what is reported, in every component that is present even if others are absent; the chemical potential of a component that is present is the derivative of the total Gibbs energy of mixing in its moles; potentials weighted by mole fractions add up to G (Euler); RT ln(activity) is the chemical potential, and an absent component has activity zero; the reported derivatives of the activities are their derivatives; for every pair of components the interaction parameter used is the one written for that pair.", "quantifier": "for every table of interaction parameters, temperature, pressure and composition with silica present and the liquid not pure water", "why_tests_cant": "derivative identities over an 18-dimensional continuum of compositions", "anchors": ["sources/liquid_v34.c: actLiq_v34, gmixLiq_v34, hmixLiq_v34, smixLiq_v34, cpmixLiq_v34, vmixLiq_v34", "include/melts/param_struct_data_v34.h"]}
{"id": "C66", "title": "Rhyolite-MELTS 1.1/1.2 liquid: carbonate speciation is an equilibrium and all reported properties are derivatives of one Gibbs energy", "statement": "In the liquid models with dissolved CO2 (rhyolite-MELTS 1.1.0 and 1.2.0) the amount of carbonate is between zero and what CaSiO3 and CO2 allow, so that no species gets a negative mole fraction; the search for it ends after at most 200 iterations; no carbonate forms without CaSiO3 or without CO2. Where carbonate can form there is a state at which the reaction CaSiO3 + CO2 = CaCO3 + SiO2 is at equilibrium (law of mass action with the species' energies), it is the only one unless the liquid unmixes along the reaction, it depends differentiably on T, P and composition, and a search that reports convergence after a full step is within a stated bound of it. At this state, and without carbonate, reported G, H, S, Cp, V of mixing and all their reported derivatives in T, P and the components that are present are derivatives of one Gibbs energy, whatever other components are absent; reported chemical potentials are the derivatives of the total Gibbs energy of mixing in the moles, add up to G (Euler), and are RT ln of the reported activities, whose reported derivatives are their derivatives. The Gibbs energy is the regular solution in the species with the given energies and interaction parameters, if the linear system for the expansion is solved exactly.", "quantifier": "for every table of parameters and every set of standard states that are consistent in themselves, every set of components present, all temperatures above zero, all pressures, all compositions with non-negative components, every state of the speciation reaction", "why_tests_cant": "third derivatives through an implicit function over 18 components times every subset of absent components; existence and uniqueness of an equilibrium at every condition cannot be sampled", "anchors": ["sources/liquid_CO2.c: actLiq_CO2, gmixLiq_CO2, hmixLiq_CO2, smixLiq_CO2, cpmixLiq_CO2, vmixLiq_CO2, order, initialGuessOrdering, rANDsTOx, initializeLiquid, loadTaylorCoefficients", "sources/liquid_CO2_H2O.c"]}
{"id": "C67", "title": "Each step of the minimiser is the constrained Newton step; only the last Lagrange multiplier is right", "statement": "If the projected linear system handed to the solver is solved exactly, the step the program assembles from it meets every linear constraint and makes the quadratic model of the potential stationary in every direction allowed by the constraints; if the Hessian is positive (semi-)definite on those directions the step minimises the model among all vectors that meet the constraints, strictly in the definite case. The Lagrange multiplier computed for the last constraint (the one that is used: enthalpy, entropy, volume) is the one of the least-squares balance of the gradient by the constraints. The multipliers of the other constraints are not: with two constraints (3,4,0) and (1,0,3/5) and a gradient equal to the second, the first multiplier comes out as 23/25 instead of 0.", "quantifier": "for every number of constraints and unknowns, every independent set of constraints, every Hessian, gradient and right-hand side", "why_tests_cant": "holds for every matrix of every size; a test exercises a few systems", "anchors": ["sources/gradient_hessian.c: getProjGradientAndHessian (1255-1282, 1394-1416)", "sources/silmin.c: silmin (SOLVE_QUADRATIC)", "sources/lawson_hanson.c: householderRowRow, householderRowCol"]}
{"id": "C68", "title": "The linear solver returns the shortest least-squares solution of a system within tolerance of the given one", "statement": "The solver used for each step determines a pseudorank by column pivoting. It returns the shortest of all least-squares solutions of a system whose matrix differs from the given one by at most the tolerance in the norm of any column; the reported residual norm is that of this system. If the pseudorank is full this matrix is the given one and has no null vector; for a square matrix the equations are then solved exactly and uniquely. If it is deficient the matrix has a null vector; so the pseudorank is full whenever no matrix within the tolerance is singular. With the scaling used in the minimisation and full pseudorank, the step assembled by the program meets the constraints and makes the quadratic model stationary along them.", "quantifier": "for every number of equations not less than the number of unknowns, every matrix, right-hand side, non-negative tolerance and initial content of the work arrays", "why_tests_cant": "holds for every matrix of every size and rank, including pivoting order and rank-deficient cases", "anchors": ["sources/lawson_hanson.c: hfti", "sources/silmin.c: silmin (SOLVE_QUADRATIC)"]}
{"id": "C69", "title": "The Newton system assembled for an assemblage is that of its thermodynamic potential", "statement": "Without an oxygen buffer, the matrix and right-hand side assembled for each minimisation step are derivatives of one function of the amounts of the end members present and, when enthalpy, entropy or volume is given, of the temperature or pressure: the total Gibbs energy at given temperature and pressure, minus the entropy at given enthalpy, the enthalpy at given entropy, the Helmholtz energy at given volume. The right-hand side is minus the gradient (at given temperature and pressure, the Hessian times the present amounts minus the gradient), the matrix is the Hessian, and with the Lagrange multiplier it is the Hessian of the Lagrangian. With at most one liquid (which comes first) the last row of the constraint matrix is the gradient of the given quantity; with two liquids its entry for the temperature or pressure lacks what the liquids before the last contribute. The other rows express the oxide contents of the assemblage. So with a full pseudorank the step taken conserves every oxide, keeps the given quantity to first order, and makes the quadratic model stationary along every direction that conserves them; if the step changes nothing, the affinity of every reaction among the end members present vanishes.", "quantifier": "for every list of phases (liquids, solutions with absent end members, pure phases), every number of end members, every temperature, pressure and composition at which the tables of the phases are consistent (C24, C25, C60, C61, C63-C66), every set of oxides, every multiplier", "why_tests_cant": "finite differences at sample points cannot show that every entry is the exact derivative for every assemblage, mode and composition", "anchors": ["sources/gradient_hessian.c: getProjGradientAndHessian", "sources/equality_constraints.c: getEqualityConstraints"]}
{"id": "C70", "title": "The Newton system on an oxygen buffer is that of the system open to oxygen", "statement": "With a liquid present and an oxygen buffer imposed, the right-hand side assembled for a step is minus the gradient of the potential of the system open to oxygen: the potential of C69 less the oxygen content times the potential of oxygen, which is that in the liquid at given temperature and pressure or volume and that of the buffer (over temperature, for given enthalpy) at given enthalpy or entropy. At given temperature and pressure or volume, with one liquid, the matrix is the Hessian of that potential and with the multipliers the Hessian of the Lagrangian; at given enthalpy or entropy the entries between amounts differ from it by the second derivatives of oxygen content times its potential in the liquid, so matrix and right-hand side belong to different functions. With more than one liquid the oxygen term in the temperature entry is added once per liquid. The buffer's row of the constraint matrix is the gradient of the distance of the liquid from the buffer if the stored oxygen fugacity is that of the buffer at the current temperature and pressure. With both iron oxides in the bulk composition the remaining rows keep every other oxide and the total iron whatever its valence, and exactly the allocated rows are written; if one of the iron oxides is missing, a row outside the allocation is written. So with full rank the step keeps the oxides and, to first order, the buffer and the given quantity, and where the gradient vanishes along such directions every reaction is in equilibrium with oxygen at its potential in the liquid.", "quantifier": "for every buffer and offset, every list of phases starting with a liquid, every temperature and pressure at which the tables are consistent (C21, C59, C60, C69), every set of oxides, every multiplier", "why_tests_cant": "finite differences at sample points cannot show that every entry is the exact derivative for every assemblage, buffer and mode, nor that no assemblage writes outside the allocated rows", "anchors": ["sources/gradient_hessian.c: getProjGradientAndHessian", "sources/equality_constraints.c: getEqualityConstraints", "sources/liquid.c: muO2Liq", "sources/gibbs.c: getlog10fo2"]}
{"id": "C71", "title": "The affinity reported for an absent solution phase is the energy of a composition at equal potentials", "statement": "For an absent solution phase the estimator first takes the ideal solution in equilibrium with the liquid: excluded end members absent, the others with positive fractions summing to one, mu + RT ln x equal to the affinity for each; it is the only such composition and the one of least energy. Whenever the estimator reports success, within a part in a million of each returned variable there is an admissible composition at which mu + RT ln a of every end member that is not excluded equals the affinity to 0.13 J; excluded end members stay at rounding level. So an affinity below -0.13 J means that some composition of the phase is supersaturated, and, for a phase without a solvus, one above 0.13 J means that none is. For an ideal solution the estimator always succeeds and returns the first guess exactly.", "quantifier": "every solution phase (any activity, conversion and admissibility functions), temperature, pressure, set of potentials and set of excluded end members, and every outcome of the search inside a solvus", "why_tests_cant": "quantifies over all potentials and activity models, and over all runs of the nonlinear solver", "anchors": ["sources/est_saturation_state.c:165-398 getAffinityAndComposition", "sources/est_saturation_state.c:404-468 initialGuess", "sources/est_saturation_state.c:565-660 computeSolnWithinSolvus", "sources/est_saturation_state.c:683-769 func, grad", "sources/nash.c:297-401 modmrt"]}
{"id": "C72", "title": "Saturation of feldspar and pyroxenes by successive substitution: what success means", "statement": "Every pass of the substitution methods solves mu + RT ln (gamma x) = A exactly for all species that are not excluded, with positive fractions summing to one and the activity coefficients of the pass before. The routine returns after at most 100 passes and reports success exactly if two successive affinities differ by less than 0.1 J before the 100th. Success then means that the true potentials at the returned composition miss the affinity by exactly RT ln(gamma/gamma of the pass before), which is not looked at: a thermodynamically consistent binary solution exists for which success is reported with an error above 1 kJ. For an ideal solution of at least two end members the answer is exact; with a single end member left it is the potential difference minus 1 J. For pyroxenes, whose seven dependent species are reduced to the seven end members with every element kept, the passes stand still exactly where mu + RT ln a is the same for all end members present; the dependent species and their energy corrections add no condition. A run that does not converge exists, and its last pass is used by the caller as the estimate.", "quantifier": "every solution phase (any activity and conversion functions), temperature, pressure, potentials, excluded end members and energy corrections of dependent species", "why_tests_cant": "quantifies over all activity models and potentials and over runs of any number of passes", "anchors": ["sources/est_satState_revised.c:54-162 getAffinityAndCompositionGeneric", "sources/est_satState_revised.c:512-732 getAffinityAndCompositionPyroxene", "sources/evaluate_saturation.c:353-442 evaluateSaturationState"]}
{"id": "C73", "title": "Below the solidus the affinity of an absent phase is the energy of the reaction that makes it from the solids present", "statement": "When there is no liquid and the solids are in mutual equilibrium, the potentials the program computes for the liquid components by truncated singular-value least squares reproduce the potential of every end member of every solid present, so the affinity reported for an absent pure phase is the Gibbs energy of any reaction making it from those solids, and the same holds for the end members handed to the estimator of an absent solution phase and for the components of the liquid. The pure phase chosen for nucleation therefore forms with a release of energy and no admitted pure phase releases more per formula unit. If singular values are cut off, the potentials are off by at most 1e-8 of the norm of the potentials; solids not in equilibrium are fitted in the least-squares sense. This needs at least as many solid end members as liquid components (otherwise the decomposition is refused and unset memory is used). With a liquid on an oxygen buffer, the potentials put Fe2SiO4 + 1/2 O2 = Fe2O3 + SiO2 at equilibrium with the imposed fugacity by changing that of Fe2O3 only, so raising log fO2 by d changes the affinity of an absent phase by -RT ln(10) d/2 per Fe2O3. A phase or end member needing an absent component has affinity zero or is excluded. Supersaturation is reported exactly if an absent, admitted phase that has cycled fewer than two times, or an admitted liquid below the solidus, has a negative affinity.", "quantifier": "every state, table of phases, number of components and end members, singular value decomposition, estimator, buffer and fugacity", "why_tests_cant": "the solid assemblages, reactions and decompositions are infinitely many; a test compares one assemblage with one reaction", "anchors": ["sources/evaluate_saturation.c: evaluateSaturationState", "sources/silmin.c: silmin (ADD_PHASE, VERIFY_SATURATION)"]}
{"id": "C74", "title": "A phase is split in two only when that lowers its energy, and nothing is lost", "statement": "When the engine tests a phase that is present for unmixing and reports that it splits, the second composition lies next to an admissible composition of the same phase whose energy of mixing is below the tangent plane at the phase's composition by more than sqrt(eps) of its energy (so splitting off a small part lowers the energy); it contains no end member the phase did not contain; it is the one farthest from the phase of those found, and the phase is split whenever one is found. A phase whose energy of mixing is convex is never split. Splitting keeps every oxide total; each solid gains at most one copy per test, orthopyroxene none, feldspar never goes beyond two and clinopyroxene beyond three; the liquids gain at most one; the caller is told exactly whether something was added. What is not guaranteed: without liquid (and always for liquids) the amount set apart is not checked against what is there, so amounts can become negative.", "quantifier": "every solution model (energy, derivatives, feasibility test), every temperature and pressure, every state of the system", "why_tests_cant": "the search runs over a continuum of compositions of an arbitrary energy surface from several starts; that the point reported is really below the tangent plane, that convex surfaces never split and that totals are exactly kept hold for all surfaces and states, not for sampled ones", "anchors": ["sources/check_coexisting_solids.c: checkForCoexistingSolids, fminfn, fmingr", "sources/check_coexisting_liquids.c: checkForCoexistingLiquids, fminfn, fmingr", "sources/nash.c: vmmin"]}
{"id": "C75", "title": "Oxygen potential of an assemblage without liquid", "statement": "Below the solidus the oxygen potential reported is that of the reaction O2 + 4 FeO = 2 Fe2O3 written in the components of the solids present. Whenever such a reaction can be written, one is found, whatever the amounts and whether there are more components or more oxides, and over any history of calls a remembered reaction that is used again is balanced for the components now present. The value is the Gibbs energy of that reaction; if the solids are in equilibrium it is the potential of oxygen, whichever reaction was found. The derivatives reported in T, P and moles (first and second order, all pairs) are the derivatives of the value. When a potential is imposed, the solids move along the reaction only (FeO is traded for Fe2O3 and oxygen, no other oxide changes), every accepted step leaves oxygen, pure solids, oxides and solutions admissible, success means the potential is met within sqrt(DBL_EPSILON), and the halving of steps always ends. Findings: an assemblage in which no reaction can be written is given an unbalanced one (fayalite + hematite loses silica); an assemblage of pure solids never reaches another potential and the loop does not end.", "quantifier": "all assemblages of pure solids and consistent solutions, all table contents, singular value decompositions, histories of calls, temperatures, pressures, amounts, step sequences", "why_tests_cant": "the reaction depends on which components are present and on a degenerate least-squares solution; derivatives of first and second order must agree at every composition; the loop has no iteration limit and the memory of the last reaction makes results depend on the history", "anchors": ["sources/subSolidusMuO2.c: subsolidusmuO2"]}
{"id": "C76", "title": "The function minimised along a step is the potential of the constrained problem, and the computed step goes down", "statement": "When the engine searches along the step computed by its quadratic program, it sees a number exactly for step lengths of at most 2 that leave every phase feasible (and the trial temperature or pressure in range), and that number is the Gibbs energy of the assemblage after the step; at given enthalpy, entropy or volume it is the negative entropy, the enthalpy or the Helmholtz energy at the temperature (pressure) where the given quantity has its required value. The inner iteration that finds this temperature meets its tolerance in the 50 rounds allowed whenever the heat capacity (compressibility) varies by at most one half over the interval involved. If the Hessian is positive along the computed step, every sufficiently short feasible step lowers the number. On an oxygen buffer at given temperature and pressure the liquids are first brought to the buffer, which exchanges oxygen only, and the number is the Gibbs energy less the oxygen at the buffer's potential; again sufficiently short steps lower it. Findings: without such a bound the inner iteration can end anywhere and the number is used as if it had converged; on a buffer, a first liquid without iron makes the number independent of the buffer, and without liquid the oxygen is counted at a potential that has not been set, whose value decides between steps.", "quantifier": "all assemblages of pure solids, solutions and liquids with consistent tables, all step directions and lengths, all feasibility tests, all four modes", "why_tests_cant": "a value and a slope must agree at every composition, direction and step length; convergence and descent are statements about all steps near a point and all iterates", "anchors": ["sources/linear_search.c: linearSearch", "sources/silmin.c: LINEAR_SEARCH", "sources/nash.c: min1d"]}
{"id": "C77", "title": "The linear solver behind the ordering state of a phase", "statement": "The internal order of a phase and its derivatives are obtained from linear equations whose matrix is handed to melts_LU_decomp / melts_LU_solve, which leave out zero rows (ordering parameters that are missing). A nonsingular matrix of any size is solved exactly, with or without exchanges of rows, so the derivatives reported are those the ordering state is defined by. The zero matrix of any size gives zero; a single remaining parameter of at most three is solved for and the others are zero; of three parameters with the second or third missing the other two are solved for, provided the elimination does not exchange their rows. Findings: when it does exchange them, the result solves the equations with the right sides interchanged; when the first of three is missing, the solver divides by zero; with four or more parameters of which only the first remains (or four of which the first two remain, uncoupled), a x = b is answered with x = a b, because zero rows are counted more than once.", "quantifier": "every matrix size, every matrix of the stated shape, every right side, every factorisation that meets the GSL manual's description", "why_tests_cant": "the wrong cases need particular patterns of missing parameters and pivots, and a wrong correction still looks like a number; tests see finitely many matrices", "anchors": ["sources/melts_linalg.c: melts_LU_decomp, melts_LU_svx, melts_LU_solve", "sources/spinel.c: order", "sources/albite.c: order", "sources/rhombohedral.c: order"]}
{"id": "C78", "title": "A solution that becomes one of its end members has that end member's energy", "statement": "The Gibbs energy of mixing a solid solution reports tends to zero as the composition approaches a pure end member, although the energies of the solution and of the ordered pure end member are computed by different formulas from ordering states found by different iterations. This holds for all five end members of spinel (above 885 K), for pseudobrookite in ortho-oxide (above 482 K), for all four end members of the rhombohedral oxides with the ordering state of least energy (below 2044 K) and for all four end members of melilite at equilibrium order (above 800 K). It fails for the other two end members of ortho-oxide: next to ferropseudobrookite and karrooite the reported energy of mixing tends to a limit between 12500 - 2RT ln(3/2) and 12500 J/mol, positive up to 1650 K.", "quantifier": "every temperature in the range, every pressure, every sequence of compositions with all end members present that tends to an end member, every ordering state function that solves the equilibrium equations", "why_tests_cant": "The claim is a limit over all compositions tending to the end member, where site fractions go to zero and the formulas are singular; a test evaluates single compositions, where the program clamps the fractions.", "anchors": ["sources/spinel.c: gmixSpn", "sources/spinel.c: pureSpn", "sources/ortho-oxide.c: gmixOox", "sources/ortho-oxide.c: pureOox", "sources/ortho-oxide.c: FE_H, FE_S, MG_H, MG_S", "sources/rhombohedral.c: gmixRhm", "sources/rhombohedral.c: pureRhm", "sources/melilite.c: gmixMel", "sources/melilite.c: pureMel"]}
{"id": "C79", "title": "The equation of state of water: reported properties, density and reference state", "statement": "The record the program returns for water in the rhyolite-MELTS modes (G, H, S, V, Cp, dCp/dT and the derivatives of V) is, at every temperature between 810 and 5000 K and every pressure other than 10 kbar, the record of one Gibbs energy: entropy, volume, heat capacity and all derivatives are derivatives of the reported G, along any continuous density for which the equation of the density iteration holds and the pressure is not stationary in density. The enthalpy is the exception: below 10 kbar H is G + TS less a constant (10.3 J per mole, two reference states that do not match), above 10 kbar it is also off by twice the temperature times the entropy of compression from 10 kbar (a wrong sign; more than 13 kJ too large at 1200 C and 20 kbar). Above 810 K the pressure of the density iteration is the pressure of the Helmholtz energy the properties come from, the slope it divides by is that pressure's derivative, a density that solves the equation is kept, and when the iteration ends by its tests its density solves the equation to ten machine precisions; below 810 K the iteration solves another equation (more than one bar away at 640 K and 0.31 g/cm3). At small densities water is a gas: the pressure rises with density and vanishes with it; at one bar there is exactly one density up to a milligram per cm3, the properties there are a consistent table in temperature, and with it the component H2O of the melt of MELTS 1.0, 1.1 and 1.2 reports consistent properties at every pressure. At 1021 C there is a density between 0.82 and 0.83 g/cm3 at which the pressure is 10 kbar.", "quantifier": "for every temperature in the range, pressure, density function that solves the equation, first guess of the density and number of passes", "why_tests_cant": "third derivatives of a sum of sixty terms and an implicitly defined density over a continuum of temperatures and pressures; sampled finite differences cannot settle identities, and existence and uniqueness of the density quantify over all temperatures", "anchors": ["sources/water.c: whaar", "sources/water.c: wdh78", "sources/gibbs.c: gibbs (2342-2375)"]}
{"id": "C80", "title": "Pure H2O and CO2 of the mixed fluid: one Gibbs energy, the volume search, and the low-density limit", "statement": "The properties the program reports for pure H2O and for pure CO2 of the mixed fluid are, at every temperature and at every pressure other than 2000 bar, along any continuous volume that solves the equation of state at a point where the pressure is not stationary in volume, the properties of one Gibbs energy: entropy, enthalpy, heat capacity and the four expansions are its derivatives, except that every volume is too large by the same factor 8.314467/8.3143 (two gas constants), so the reported volume is strictly above dG/dP. The reported dCp/dT is a difference quotient which tends to the derivative of Cp as its step tends to zero. At 2000 bar, where the two sets of coefficients are joined, G, S, H and Cp are continuous (from the two sides) although the volume is not required to be. The logarithm of the fugacity coefficient has pressure derivative (z-1)/P; it and the compressibility factor tend to the ideal gas at large volume. A volume the search returns without a message satisfies the equation of state to a relative 100 machine precisions, or lies within 100 machine precisions of an exact solution; when its first loop ends before its limit and the last two volumes are not astronomically far apart, so does its second; at low density (one hundredth of the critical pressure times the reduced temperature, above the critical temperature, which covers 1 bar at 650 K and above) it accepts, within 4 per cent of the ideal volume, and lies within 115 machine precisions of the only solution of at least half the ideal volume. Carbon dioxide dissolved in the melt, which uses the pure gas at 1 bar, has consistent properties.", "quantifier": "for both species, every temperature, pressure, step of the difference quotient and volume function that solves the equation of state; for the search, every residual function and start", "why_tests_cant": "second derivatives of an implicitly defined volume over a continuum of temperatures and pressures, and termination and uniqueness of a root for all states; sampled finite differences cannot settle identities", "anchors": ["sources/fluidPhase.c: propertiesOfPureH2O", "sources/fluidPhase.c: propertiesOfPureCO2", "sources/fluidPhase.c: duanH2ODriver", "sources/fluidPhase.c: duanCO2Driver", "sources/gibbs.c: gibbs (1072, 2378, 2381)"]}
{"id": "C81", "title": "H2O-CO2 mixtures of the fluid: one residual energy, the mixing properties, and the two gas constants", "statement": "For the mixed H2O-CO2 fluid, at every temperature, composition and volume: there is one residual energy, proportional to the amount of fluid and vanishing in the ideal gas limit, of which the equation of state is the volume derivative and the fugacity coefficients of the two species (times the compressibility factor) the exponentials of the amount derivatives; and the derivatives of the fugacity coefficients with respect to amounts that the program writes out are exact. Along any continuous volume that solves the equation of state where the pressure is not stationary in volume, in both pressure ranges: the reported composition derivative of the Gibbs energy of mixing is its derivative; the composition derivatives of the two fugacity coefficients obey the Gibbs-Duhem relation; chemical potentials are RT times the logarithms of the activities, average to the Gibbs energy of mixing and are its tangent intercepts; the volume of mixing is the pressure derivative times the ratio of the program's two gas constants, and its composition and pressure derivatives are right (the first again up to that ratio). The reported second composition derivative and the activity derivatives would be exact with the gas constant of the equation of state; with the one the program uses there, up to 2000 bar, the second derivative is too large by a stated term wherever the pressure falls with the volume. At a pure composition the mixture is the pure species, and the Gibbs energy of mixing tends to zero there; where the coefficients change, at 2000 bar, the Gibbs energy of mixing, its slope and the activities are continuous in pressure.", "quantifier": "for every temperature, pressure, composition, and volume functions of the mixture and the pure species that solve the equation of state", "why_tests_cant": "identities between derivatives of implicitly defined functions over a continuum of states; the error from the second gas constant is of relative size 1e-5 and hidden in finite-difference noise", "anchors": ["sources/fluidPhase.c: duanDriver", "sources/fluidPhase.c: duan", "sources/fluidPhase.c: actFlu", "sources/fluidPhase.c: gmixFlu", "sources/fluidPhase.c: vmixFlu", "sources/fluidPhase.c: BVcAndDerivative ... GammaVcAndDerivative"]}
{"id": "C82", "title": "H2O-CO2 mixtures of the fluid: entropy, enthalpy and thermal expansion of mixing, and the temperature where they diverge", "statement": "For the mixed H2O-CO2 fluid, at every composition strictly between the pure species, in both pressure ranges and at every positive temperature at which none of the end-member coefficients the mixing rules combine is zero, along continuous volumes that solve the equations of state where the pressure is not stationary in volume: the reported entropy of mixing is minus the temperature derivative of the reported Gibbs energy of mixing, the enthalpy of mixing is the Gibbs energy plus temperature times the entropy of mixing and obeys the Gibbs-Helmholtz equation, the composition derivative of the entropy of mixing is minus the temperature derivative of the composition derivative of the Gibbs energy, and the temperature derivative of the volume of mixing is exact (this also at the pure ends). Such volumes exist at low pressure from 650 K up, and near a pure species between 2000 and 2200 bar at 2589 K. Between 1550 and 1620 K there is a temperature at which the second virial coefficient of water is zero: there the program divides by zero, and the temperature derivative it asks for does not exist.", "quantifier": "for every temperature, pressure, composition, and volume functions of the mixture and the pure species that solve the equation of state; the exceptional temperature is proved to exist", "why_tests_cant": "identities between derivatives of implicitly defined functions over a continuum of states; the singular temperature is a single real number no test grid hits", "anchors": ["sources/fluidPhase.c: DpowSum", "sources/fluidPhase.c: duanDriver", "sources/fluidPhase.c: duan", "sources/fluidPhase.c: smixFlu", "sources/fluidPhase.c: hmixFlu", "sources/fluidPhase.c: vmixFlu"]}
{"id": "C83", "title": "H2O-CO2 mixtures of the fluid: heat capacity of mixing and second derivatives of the volume of mixing", "statement": "For the mixed H2O-CO2 fluid, at every composition strictly between the pure species, in both pressure ranges and at every positive temperature at which none of the end-member coefficients the mixing rules combine is zero, along continuous volumes that solve the equations of state where the pressure is not stationary in volume: the reported heat capacity of mixing is the temperature derivative of the reported enthalpy of mixing, and the temperature times that of the reported entropy of mixing; the reported composition derivative of the heat capacity is the temperature times the temperature derivative of the composition derivative of the entropy; the reported second temperature derivative and mixed derivative of the volume of mixing are the temperature derivatives of its reported thermal expansion and compression; away from 2000 bar the mixed and the second pressure derivative are the pressure derivatives of the same; and the reported derivatives of the volume's composition derivative with respect to temperature and (away from 2000 bar) pressure are exact. Such volumes exist at low pressure from 650 K up, and near a pure species between 2000 and 2200 bar at 2589 K.", "quantifier": "for every temperature, pressure, composition, and volume functions of the mixture and the pure species that solve the equation of state", "why_tests_cant": "second-order identities between derivatives of implicitly defined functions over a continuum of states; a finite-difference test of a second derivative cannot tell an exact one from one wrong by a small term", "anchors": ["sources/fluidPhase.c: D2powSum", "sources/fluidPhase.c: duanDriver", "sources/fluidPhase.c: duan", "sources/fluidPhase.c: cpmixFlu", "sources/fluidPhase.c: vmixFlu"]}
{"id": "C84", "title": "H2O-CO2 mixtures of the fluid: the volume search", "statement": "Whenever the volume search of the H2O-CO2 mixture returns without a message, after a first loop that ended at positive volumes, the volume it returns satisfies the mixture's equation of state to a relative error of 100 machine epsilons, or lies within 100 machine epsilons of an exact, positive solution. At every positive temperature and every composition, with both sets of coefficients, there is a pressure below which the search stops by its tolerance without a message, at a volume within 4 per cent of the ideal gas's, which differs by less than 115 machine epsilons of itself from the only solution of at least half the ideal gas's volume; there the pressure falls with volume. Such solutions extend to the functions of temperature and pressure on which the theorems about the mixture's temperature derivatives rest. At the ends of the composition range the search is that of the pure species.", "quantifier": "for every temperature, pressure, composition and set of coefficients", "why_tests_cant": "termination and accuracy of an iterative search over a continuum of states; tests only sample pressures, temperatures and compositions", "anchors": ["sources/fluidPhase.c: duanDriver", "sources/fluidPhase.c: BVcAndDerivative"]}
{"id": "C85", "title": "When the two-component phases, hornblende, garnet and leucite form one phase, and when they, feldspar and kalsilite unmix", "statement": "The test for coexisting solids never reports a two-component solution in two phases above that solution's critical temperature, as long as each end member makes up at least a hundred-thousandth of it: biotite from 808 K, the two-component olivine from 271 K, wadsleyite from 107 K, ringwoodite from 228 K, periclase-wustite from 1117 K, perovskite from 280 K plus one kelvin per kilobar, the two-component ilmenite at every temperature, and solid and liquid iron-nickel alloy from 120 K. The same holds of three-component hornblende from 1010 K, at every composition with both exchanges begun and neither complete; to 1009 K hornblende with equal parts of aluminium and ferric iron loses energy by separating. Garnet (three components) is one solution from 1200 K, one kelvin more per 75 bars, as long as each end member makes up at least a hundred-thousandth of it; to 910 K, with at most one part in a hundred of almandine and twice as much pyrope as grossular, it loses energy by separating. Leucite is one solution from 1550 K as long as leucite and analcime each make up between a ten-thousandth and all but a ten-thousandth of it; to 1547 K there is a composition at which it loses energy by separating. Feldspar loses energy by separating along the alkali join to 940 K, with at most one part in a hundred of anorthite and twice as much albite as sanidine, and along the anorthite-sanidine join to 2170 K at up to 50 kbar, with at most one part in a hundred of albite; from 943 K, one kelvin more per 18 bars, separating into parts with different albite and the same anorthite never lowers the energy, at any anorthite. Kalsilite with as much potassium as sodium loses energy by separating to 440 K times the share of the large sites the two fill; from 441 K times that share, parts with different potassium and the same calcium and vacancies never have a lower energy than their blend. For the two-component phases, up to the next kelvin below (807, 270, 106, 227 and 1116 K; for perovskite 271 K at any pressure) there is a composition at which the reported energy of mixing exceeds the mean of that of any two compositions close enough on either side, so that the phase loses energy by separating and the function the test minimises is negative somewhere. This happens wherever the second derivative a two-component phase reports is negative.", "quantifier": "for every temperature, pressure, composition, and state and step limit of the search", "why_tests_cant": "that a search never finds a lower state is a statement about all starting points and compositions; tests sample a few temperatures and the boundary is sharp to a kelvin", "anchors": ["sources/check_coexisting_solids.c: checkForCoexistingSolids", "sources/biotite.c: gmixBio", "sources/olivine-sx.c: gmixOsx", "sources/wadsleyite.c: gmixWds", "sources/ringwoodite.c: gmixRgw", "sources/wustite.c: gmixWus", "sources/perovskite.c: gmixPvk", "sources/ilmenite.c: gmixIlm", "sources/alloy-solid.c: gmixAlS", "sources/alloy-liquid.c: gmixAlL", "sources/hornblende.c: gmixHrn", "sources/garnet.c: gmixGrn, conGrn, testGrn", "sources/leucite.c: gmixLeu, conLeu, testLeu", "sources/feldspar.c: gmixFld", "sources/kalsilite.c: gmixKal"]}
