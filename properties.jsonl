{"id": "C01", "title": "Parameter precedence", "statement": "After registration has ended, reading a parameter yields the value given on the command line if there is one, otherwise the value from the parameter file if there is one, otherwise the last overridden default (SetDefault), otherwise the registered default; values of other parameters never influence it.", "quantifier": "every set of registered parameters, every command line, every parameter file, every sequence of default overrides and every parameter name", "why_tests_cant": "the space of command lines, files and override histories is infinite; tests sample a few combinations", "anchors": ["opm/models/utils/parametersystem.hh: Get, SetDefault, parseCommandLineOptions, parseParameterFile", "opm/models/utils/start.hh: setupParameters_"]}
{"id": "C02", "title": "Registration protocol", "statement": "In every history of calls: registering after registration has been closed is rejected; reading a value before it is closed, or reading or overriding an unregistered parameter, is rejected; closing twice is rejected; a second registration of a name is accepted only with the same type and usage text and then leaves the registered default unchanged; a rejected call does not change any readable value.", "quantifier": "every finite sequence of Register/SetDefault/Hide/Get/IsSet/endRegistration calls", "why_tests_cant": "the property is about all call histories, tests execute a handful of orders", "anchors": ["opm/models/utils/parametersystem.hh: Register, Get, SetDefault, IsSet, Hide, endRegistration"]}
{"id": "C03", "title": "Help option names are accepted by the command line parser", "statement": "For every parameter name made of ASCII letters and digits starting with an upper-case letter, the --kebab-case option that --help prints for it, given on the command line as --option=value, sets exactly that parameter to exactly that value.", "quantifier": "every such parameter name and every value string", "why_tests_cant": "infinitely many names (runs of capitals, digits in the middle) and values (values that contain '=' or blanks)", "anchors": ["opm/models/utils/parametersystem.hh: printParamUsage_, transformKey_, parseKey_, parseCommandLineOptions"]}
{"id": "C04", "title": "Command line: all-or-error, no duplicates", "statement": "A command line without positional arguments is accepted only if every argument is --key=value with a well-formed key and no key (after CamelCase conversion) occurs twice; in that case each parameter is set to the text after its first '=' and nothing else is set.", "quantifier": "every list of argument strings", "why_tests_cant": "unbounded argument lists with arbitrary characters; tests check a few malformed samples", "anchors": ["opm/models/utils/parametersystem.hh: parseCommandLineOptions, parseKey_, transformKey_"]}
{"id": "C05", "title": "Quoted parameter values round-trip", "statement": "Writing any text between double quotes with the documented escapes (\\n \\r \\t \\\" \\\\) in a parameter file and reading it back yields exactly the original text, and the reader consumes exactly the quoted region; an unknown escape or a missing closing quote is an error.", "quantifier": "every string, with every following text on the same line", "why_tests_cant": "round-trip over all strings, including strings full of quotes and backslashes", "anchors": ["opm/models/utils/parametersystem.hh: parseQuotedValue_"]}
{"id": "C06", "title": "Malformed parameter file lines are rejected", "statement": "A parameter file line that has no '=' after its key, no value, or trailing text after its value is rejected with an error instead of silently storing some value.", "quantifier": "every line of text", "why_tests_cant": "all possible malformed lines; the code builds the exception object but never throws it", "anchors": ["opm/models/utils/parametersystem.hh: parseParameterFile"]}
{"id": "C07", "title": "Help text wrapping loses no text", "statement": "Breaking a help text into terminal lines keeps all of its non-blank characters in their order.", "quantifier": "every text, indentation and terminal width", "why_tests_cant": "depends on the position of blanks, line breaks and over-long words relative to the width for arbitrary texts", "anchors": ["opm/models/utils/parametersystem.hh: breakLines_"]}
{"id": "C08", "title": "--help never starts a simulation", "statement": "If the help option is given, the program prints the usage and exits without running the simulator, whatever the defaults of the problem are.", "quantifier": "every command line that contains the help option and every problem default", "why_tests_cant": "an implication over all command lines and all problems' defaults", "anchors": ["opm/models/utils/start.hh: start, setupParameters_", "opm/models/utils/parametersystem.hh: parseCommandLineOptions"]}
{"id": "C09", "title": "Newton success means converged", "statement": "If the Newton method reports success then the most recently measured error is at most the tolerance, at least one complete iteration was done, and the returned solution is the one for which that error was measured.", "quantifier": "every linearizer, linear solver, update and error sequence (including failing ones) and every tolerance and iteration limit", "why_tests_cant": "quantifies over all residual histories and solver behaviours", "anchors": ["opm/models/nonlinear/newtonmethod.hh: apply, proceed_, converged, preSolve_, end_"]}
{"id": "C10", "title": "Newton terminates", "statement": "For every tolerance > 0 and every behaviour of linearizer and linear solver the Newton loop ends; the number of iterations is bounded by the configured maximum plus the number of times the error can be quartered between the largest admissible error and the tolerance.", "quantifier": "every infinite behaviour of the linearizer/solver (an oracle), every parameter value", "why_tests_cant": "termination over an adversarial oracle cannot be tested", "anchors": ["opm/models/nonlinear/newtonmethod.hh: apply, proceed_, preSolve_"]}
{"id": "C11", "title": "Failed Newton solves leave no trace in the solution", "statement": "If a time-step solve fails, for whatever reason and at whatever iteration, the current solution afterwards equals the solution of the previous time level and the cached quantities agree with it.", "quantifier": "every failure point (linearization exception, linear solver failure, non-finite update, non-convergence) and every iteration history", "why_tests_cant": "all crash points of an unbounded iteration", "anchors": ["opm/models/discretization/common/fvbasediscretization.hh: update, updateFailed", "opm/models/nonlinear/newtonmethod.hh: apply, failed_"]}
{"id": "C12", "title": "Constrained degrees of freedom keep their prescribed value", "statement": "While constraints are enabled, after each Newton update every constrained degree of freedom has exactly the prescribed value, and it neither contributes to the error measure nor changes through the linear solve.", "quantifier": "every solution vector, update vector and set of constraints", "why_tests_cant": "all vectors and constraint sets", "anchors": ["opm/models/nonlinear/newtonmethod.hh: update_, preSolve_", "opm/models/discretization/common/fvbaselinearizer.hh: applyConstraintsToLinearization_, applyConstraintsToSolution_"]}
{"id": "C13", "title": "Undefined residuals are never accepted as converged", "statement": "If some entry of the residual of an unconstrained interior degree of freedom is not a number, the Newton method does not report convergence in that iteration.", "quantifier": "every residual vector over numbers and NaN", "why_tests_cant": "depends on the order of comparisons over arbitrary vectors", "anchors": ["opm/models/nonlinear/newtonmethod.hh: preSolve_, converged, update_"]}
{"id": "C14", "title": "Time step suggestions are bounded", "statement": "The suggested next time step is never below the minimum time step; with n iterations and target t it is oldDt/(n/t) for n > t (never larger than oldDt unless raised to the minimum) and at most oldDt*(1+1/1.2) otherwise, and it is monotonically non-increasing in n.", "quantifier": "every iteration count, target > 0, old step > 0", "why_tests_cant": "inequalities over all reals and counts", "anchors": ["opm/models/nonlinear/newtonmethod.hh: suggestTimeStepSize", "opm/models/discretization/common/fvbaseproblem.hh: nextTimeStepSize, limitNextTimeStepSize"]}
{"id": "C15", "title": "Time integration retries are bounded and never shrink below the minimum", "statement": "A time step is attempted at most maxTimeIntegrationFailures times; each retry uses half of the previous size but never less than the minimum time step size; the outcome is success, an exception, or (if enabled) acceptance of the failed step, and on success the size in force is that of the successful attempt.", "quantifier": "every outcome sequence of the nonlinear solver and every parameter value", "why_tests_cant": "all outcome sequences and all real parameters", "anchors": ["opm/models/discretization/common/fvbaseproblem.hh: timeIntegration"]}
{"id": "C16", "title": "ContinueOnConvergenceError continues with the computed iterate", "statement": "With the option to continue after a non-converged solve, the accepted solution of the time step is the (non-converged) last iterate, as its documentation says, rather than the old time level.", "quantifier": "every failing solve", "why_tests_cant": "needs the state after every failure path", "anchors": ["opm/models/discretization/common/fvbaseproblem.hh: timeIntegration", "opm/models/discretization/common/fvbasediscretization.hh: updateFailed"]}
{"id": "C17", "title": "Simulation clock consistency", "statement": "Throughout a run the time equals the start of the run plus the sum of all completed time-step sizes, the step index equals the number of completed steps, both are non-decreasing, and each completed step was integrated with exactly the size by which time advanced.", "quantifier": "every problem (callbacks that choose step sizes, set episodes or finish at any point)", "why_tests_cant": "histories of unbounded length with adversarial callbacks", "anchors": ["opm/models/utils/simulator.hh: run, setTimeStepSize, maxTimeStepSize"]}
{"id": "C18", "title": "Episode and time-step callbacks are well bracketed", "statement": "In every run beginEpisode/endEpisode and beginTimeStep/endTimeStep strictly alternate, time integration happens exactly once inside every completed time step, every time step lies inside an episode, and finalize comes last.", "quantifier": "every problem callback behaviour (including finishing inside any callback) and every run length", "why_tests_cant": "trace property over all schedules of callbacks", "anchors": ["opm/models/utils/simulator.hh: run"]}
{"id": "C19", "title": "Steps do not cross the episode end or the end time", "statement": "Unless the user forces time steps, a step chosen by the simulator never goes beyond the end of the current episode or the end of the simulation.", "quantifier": "every problem, every episode length sequence", "why_tests_cant": "holds for all histories or not at all; the clamp is missing on one branch", "anchors": ["opm/models/utils/simulator.hh: run, maxTimeStepSize, episodeMaxTimeStepSize, startNextEpisode"]}
{"id": "C20", "title": "Restart files restore the simulation clock", "statement": "Deserializing what was serialized restores episode index, episode start and length, start time, current time and step index exactly, for a stream of any further sections; saved and restored runs agree on every query that depends on these alone.", "quantifier": "every clock state and every surrounding restart content", "why_tests_cant": "round-trip over all states", "anchors": ["opm/models/utils/simulator.hh: serialize, deserialize", "opm/models/io/restart.hh: serializeSectionBegin, deserializeSectionBegin"]}
{"id": "C21", "title": "Distinct restart times give distinct restart files", "statement": "Two restart snapshots written at different simulation times are stored under different file names, so no snapshot silently replaces another.", "quantifier": "every pair of times", "why_tests_cant": "an injectivity claim over all times", "anchors": ["opm/models/io/restart.hh: restartFileName_"]}
{"id": "C22", "title": "The forced time-step file is read completely", "statement": "Reading the user-supplied file of predefined time steps terminates for every file content and yields exactly the numbers of the file.", "quantifier": "every file content, including missing files, trailing blanks and malformed tokens", "why_tests_cant": "termination for all inputs", "anchors": ["opm/models/utils/simulator.hh: Simulator (constructor)"]}
{"id": "C23", "title": "Every dispatched tasklet runs exactly as often as requested", "statement": "For every number of workers and every interleaving, each tasklet dispatched before a barrier (with at least one requested invocation) has run exactly the requested number of times when the barrier returns, and never more often.", "quantifier": "every number of workers, every list of dispatched tasklets with any invocation counts, every schedule", "why_tests_cant": "all interleavings", "anchors": ["opm/models/parallel/tasklets.hh: dispatch, run_, barrier, TaskletInterface"]}
{"id": "C24", "title": "Tasklets start in dispatch order", "statement": "Invocations are taken from the queue in the order of dispatch; no invocation of a later tasklet is started before all invocations of an earlier one were started.", "quantifier": "every schedule and every dispatch sequence", "why_tests_cant": "all interleavings", "anchors": ["opm/models/parallel/tasklets.hh: dispatch, run_"]}
{"id": "C25", "title": "A failing tasklet is never lost", "statement": "If any invocation of a tasklet throws, failure() is true from then on, the worker keeps processing and every other tasklet still runs, in the synchronous and in the threaded mode.", "quantifier": "every schedule, every set of throwing tasklets, any number of workers including zero", "why_tests_cant": "all interleavings and all subsets of failures", "anchors": ["opm/models/parallel/tasklets.hh: run_, dispatch, failure"]}
{"id": "C26", "title": "Barriers neither deadlock nor return early", "statement": "A barrier call returns if and only if all workers reached it, and from every reachable state with the main thread in the barrier some thread can make a step until it has returned.", "quantifier": "every reachable state of the pool", "why_tests_cant": "deadlock freedom over all interleavings", "anchors": ["opm/models/parallel/tasklets.hh: BarrierTasklet::wait, barrier"]}
{"id": "C27", "title": "Threaded entity iteration visits each entity exactly once", "statement": "With any number of threads pulling from the shared iterator, every grid element is handed to exactly one thread, in grid order, and once an abort was requested no further element is handed out.", "quantifier": "every number of threads, every schedule, every grid size, abort at any point", "why_tests_cant": "all interleavings", "anchors": ["opm/models/parallel/threadedentityiterator.hh: beginParallel, increment, isFinished, setFinished"]}
{"id": "C28", "title": "Ghost synchronisation handles compute the advertised reduction", "statement": "After a border/overlap exchange with the sum, max or min handle every shared degree of freedom has, on every process, the sum, maximum or minimum over all processes' contributions; with the ghost-sync handle, copies take the owner's value.", "quantifier": "every number of processes, every sharing relation, every message order", "why_tests_cant": "all message orders", "anchors": ["opm/models/parallel/gridcommhandles.hh: GridCommHandleSum, GridCommHandleGhostSync, GridCommHandleMax, GridCommHandleMin"]}
{"id": "C29", "title": "Timer accounting", "statement": "The accumulated time of a timer equals the sum of the lengths of its completed start/stop intervals plus, if running, the time since the last start, for nested guards and repeated starts as well.", "quantifier": "every sequence of start/stop/halt and guard operations at non-decreasing times", "why_tests_cant": "all operation sequences", "anchors": ["opm/models/utils/timer.hh: Timer", "opm/models/utils/timerguard.hh: TimerGuard"]}
{"id": "C30", "title": "Scope guards fire exactly once", "statement": "The callback of a guard is called exactly once over the lifetime of the guard and everything it is moved to, unless it was disabled, in which case it is never called.", "quantifier": "every sequence of moves, disable/enable calls and destructions", "why_tests_cant": "all operation sequences", "anchors": ["opm/models/utils/genericguard.hh: GenericGuard"]}
{"id": "C31", "title": "Cached intensive quantities are never stale", "statement": "Whenever a cached intensive quantity is handed out, it is the one which results from the degree of freedom's current primary variables of that time level.", "quantifier": "every sequence of solution updates, failed updates, time-level advances, cache invalidations, residual evaluations and element-context updates", "why_tests_cant": "invariant over all operation histories", "anchors": ["opm/models/discretization/common/fvbasediscretization.hh: cachedIntensiveQuantities, updateCachedIntensiveQuantities, invalidateIntensiveQuantitiesCache, shiftIntensiveQuantityCache, updateFailed, advanceTimeLevel, globalResidual", "opm/models/discretization/common/fvbaseelementcontext.hh: updateIntensiveQuantities_"]}
{"id": "C32", "title": "Time levels shift correctly", "statement": "Advancing the time level makes the accepted solution the previous-step solution, and (with cached quantities of any history length) time index k+1 then refers to what time index k referred to before.", "quantifier": "every history size and every solution", "why_tests_cant": "all history sizes; the shipped configurations only use two", "anchors": ["opm/models/discretization/common/fvbasediscretization.hh: advanceTimeLevel, shiftIntensiveQuantityCache"]}
{"id": "C33", "title": "Auxiliary equations get disjoint, gap-free index ranges", "statement": "After adding any sequence of auxiliary modules, their degree-of-freedom ranges are pairwise disjoint, start after the grid's, leave no gap, and are exactly the indices up to the total number of degrees of freedom.", "quantifier": "every list of modules and sizes, added in any order, with clearing in between", "why_tests_cant": "all lists of modules", "anchors": ["opm/models/discretization/common/fvbasediscretization.hh: addAuxiliaryModule, clearAuxiliaryModules, numAuxiliaryDof, numTotalDof", "opm/models/discretization/common/baseauxiliarymodule.hh: localToGlobalDof"]}
{"id": "C34", "title": "Local mass conservation of the assembled residual", "statement": "For every grid and every flux law the sum of the assembled residual over all degrees of freedom equals storage change minus sources plus boundary outflow: interior fluxes cancel exactly.", "quantifier": "every grid, every flux function, every primary variables", "why_tests_cant": "an algebraic identity over all grids and states", "anchors": ["opm/models/discretization/common/fvbaselocalresidual.hh: evalFluxes, evalVolumeTerms_", "opm/models/discretization/common/fvbaselinearizer.hh: linearizeElement_", "opm/models/discretization/common/tpfalinearizer.hh: linearize_"]}
{"id": "C35", "title": "Reported global storage does not depend on caching", "statement": "The total amount of a conserved quantity reported for the current or the previous time level is the volume-weighted sum of the storage terms whether or not the storage cache is enabled.", "quantifier": "every grid, volumes, storage terms and both cache settings", "why_tests_cant": "all grids and states; the bug is invisible when volumes are one", "anchors": ["opm/models/discretization/common/fvbasediscretization.hh: globalStorage, checkConservativeness", "opm/models/discretization/common/fvbaselocalresidual.hh: evalStorage"]}
{"id": "C36", "title": "Linearization does not depend on history", "statement": "Linearizing the full domain yields a residual and matrix which depend only on the current state, not on what was assembled before.", "quantifier": "every previous matrix/residual content, every set of auxiliary equations", "why_tests_cant": "all histories", "anchors": ["opm/models/discretization/common/fvbaselinearizer.hh: linearizeDomain, resetSystem_", "opm/models/discretization/common/tpfalinearizer.hh: linearizeDomain, resetSystem_"]}
{"id": "C37", "title": "The assembled TPFA Jacobian is the derivative of the assembled residual", "statement": "For every network of cells with an antisymmetric two-point flux the block (i,j) assembled by the TPFA linearizer is the derivative of cell i's residual with respect to the primary variables of cell j.", "quantifier": "every cell network, flux, storage and source law", "why_tests_cant": "an identity over all networks", "anchors": ["opm/models/discretization/common/tpfalinearizer.hh: linearize_, setResAndJacobi"]}
{"id": "C38", "title": "Threaded TPFA assembly is schedule independent", "statement": "Assembling with any number of threads in any interleaving gives the same residual and matrix as the sequential assembly, because no two cells write the same entry.", "quantifier": "every interleaving, every network", "why_tests_cant": "all interleavings", "anchors": ["opm/models/discretization/common/tpfalinearizer.hh: linearize_"]}
{"id": "C39", "title": "Subdomain linearization leaves the rest alone", "statement": "Linearizing a subset of the cells resets and assembles the equations of these cells only and leaves every other cell's residual unchanged.", "quantifier": "every network, subset of cells, boundary faces and previous content", "why_tests_cant": "all subsets and histories", "anchors": ["opm/models/discretization/common/tpfalinearizer.hh: linearizeDomain, resetSystem_, linearize_"]}
{"id": "C40", "title": "Erasing the matrix is safe", "statement": "After eraseMatrix() the next linearization re-creates the matrix and gives the same result as before.", "quantifier": "every sequence of linearizations and erasures", "why_tests_cant": "all call sequences", "anchors": ["opm/models/discretization/common/tpfalinearizer.hh: eraseMatrix, initFirstIteration_, createMatrix_"]}
{"id": "C41", "title": "Boundary condition updates take effect", "statement": "After the boundary condition data were updated, every boundary face uses the problem's current boundary condition, including faces whose condition was removed.", "quantifier": "every sequence of boundary condition changes", "why_tests_cant": "all histories of changes", "anchors": ["opm/models/discretization/common/tpfalinearizer.hh: updateBoundaryConditionData"]}
{"id": "C42", "title": "Numeric derivatives are exact for affine residuals", "statement": "The finite-difference linearizer gives the exact derivative for every residual that is affine in the primary variable (for forward, backward and central differences) and for every quadratic one with central differences, and restores the primary variables it deflected.", "quantifier": "every affine/quadratic residual, every non-zero step", "why_tests_cant": "all functions of the class", "anchors": ["opm/models/discretization/common/fvbasefdlocallinearizer.hh: evalPartialDerivative_"]}
{"id": "C43", "title": "Face values interpolate linear functions exactly", "statement": "The face value which the two-point gradient calculator computes for a quantity that is linear along the line through two cell centres is its exact value at the face.", "quantifier": "every pair of distances and every linear function", "why_tests_cant": "an identity over all reals", "anchors": ["opm/models/discretization/common/fvbasegradientcalculator.hh: calculateScalarValue, calculateGradient"]}
{"id": "C44", "title": "Stashing and restoring a degree of freedom is transparent", "statement": "During numeric differentiation, after a degree of freedom was stashed, modified and restored, all primary variables and intensive quantities of the element are what they were before, also for the next degrees of freedom.", "quantifier": "every number of degrees of freedom per element and every order of stash/restore", "why_tests_cant": "all orders; single-DOF elements hide the problem", "anchors": ["opm/models/discretization/common/fvbaseelementcontext.hh: stashIntensiveQuantities, restoreIntensiveQuantities, primaryVars"]}
{"id": "C45", "title": "4x4 block inversion", "statement": "For every 4x4 block with |determinant| at least 1e-40 the specialised inversion yields the inverse matrix, otherwise an error is raised and no inverse is claimed.", "quantifier": "every 4x4 matrix over a field", "why_tests_cant": "polynomial identity in 16 variables", "anchors": ["opm/simulators/linalg/matrixblock.hh: invertMatrix4, invertMatrix"]}
{"id": "C46", "title": "BiCGStab: success means the residual criterion holds", "statement": "If the BiCGStab solver returns true then the returned vector x satisfies the residual criterion for the true residual b - A x, for every linear operator and preconditioner; it never exceeds the iteration limit.", "quantifier": "every linear operator, preconditioner, right-hand side, tolerance", "why_tests_cant": "all linear systems and preconditioners", "anchors": ["opm/simulators/linalg/bicgstabsolver.hh: BiCGStabSolver::apply", "opm/simulators/linalg/residreductioncriterion.hh", "opm/simulators/linalg/combinedcriterion.hh"]}
{"id": "C47", "title": "Convergence criteria decide what they document", "statement": "converged() of each criterion is true exactly if the documented reduction or absolute tolerance is reached by the last update, and failed() is never true at the same time.", "quantifier": "every history of updates", "why_tests_cant": "all histories of solutions and residuals", "anchors": ["opm/simulators/linalg/combinedcriterion.hh", "opm/simulators/linalg/residreductioncriterion.hh", "opm/simulators/linalg/fixpointcriterion.hh", "opm/simulators/linalg/weightedresidreductioncriterion.hh"]}
{"id": "C48", "title": "Global indices are consistent across processes", "statement": "After building the global indices, all copies of a degree of freedom have the same global index on all processes, different degrees of freedom have different ones, and the indices used are exactly 0..N-1.", "quantifier": "every number of processes, every partition", "why_tests_cant": "all partitions and process counts", "anchors": ["opm/simulators/linalg/globalindices.hh: buildGlobalIndices_, addIndex, domesticToGlobal, globalToDomestic"]}
{"id": "C49", "title": "Parallel dot products count each unknown once", "statement": "The overlapping scalar product of two consistent vectors equals the sequential dot product of the assembled vectors.", "quantifier": "every partition and vector", "why_tests_cant": "all partitions", "anchors": ["opm/simulators/linalg/overlappingscalarproduct.hh: dot", "opm/simulators/linalg/domesticoverlapfrombcrsmatrix.hh: iAmMasterOf, updateMasterRanks_", "opm/simulators/linalg/foreignoverlapfrombcrsmatrix.hh: computeMasterRanks_"]}
{"id": "C50", "title": "Overlap synchronisation is correct for every message order", "statement": "After sync() all processes hold the master's value for each shared unknown; after syncAdd() all hold the sum of all contributions.", "quantifier": "every partition, every order of sends and receives", "why_tests_cant": "all message orders", "anchors": ["opm/simulators/linalg/overlappingblockvector.hh: sync, syncAdd, assignAddBorder"]}
{"id": "C51", "title": "Preconditioner failures are agreed on by all processes", "statement": "If the preconditioner throws on one process, then all processes leave the call with an exception; no process continues alone.", "quantifier": "every subset of failing processes", "why_tests_cant": "all failure combinations; a process left alone deadlocks", "anchors": ["opm/simulators/linalg/overlappingpreconditioner.hh: pre, apply, post"]}
{"id": "C52", "title": "Black-oil Newton updates are limited", "statement": "One update changes no phase saturation by more than the configured maximum, changes the pressure by at most the configured fraction before clamping to its admissible interval, changes the temperature by at most the configured maximum, and never makes a dissolution or vaporisation factor negative; bounded variables stay within their bounds.", "quantifier": "every state, meaning of the primary variables, and update vector", "why_tests_cant": "inequalities over all reals and all meanings", "anchors": ["opm/models/blackoil/blackoilnewtonmethod.hh: updatePrimaryVariables_"]}
{"id": "C53", "title": "Saturations can be normalised without division by zero", "statement": "Chopping and normalising saturations never divides by zero, yields saturations in [0,1] that sum to one, leaves admissible saturations unchanged and is idempotent.", "quantifier": "every real saturations and every meaning of the variables", "why_tests_cant": "all reals", "anchors": ["opm/models/blackoil/blackoilprimaryvariables.hh: chopAndNormalizeSaturations"]}
{"id": "C54", "title": "Primary variable switching does not oscillate on its own and reports changes", "statement": "Switching the meaning of the primary variables reports true exactly if a meaning was changed, leaves a meaning that passes the switching test (an immediate second call does not switch back), and keeps pressure and composition meanings compatible.", "quantifier": "every state, fluid system and capillary pressure law", "why_tests_cant": "all states and all material laws", "anchors": ["opm/models/blackoil/blackoilprimaryvariables.hh: adaptPrimaryVariables"]}
{"id": "C55", "title": "Primary variable and equation indices form a complete, collision-free layout", "statement": "For every admissible combination of black-oil extensions the indices of all primary variables (and of all equations) are pairwise different and fill exactly the range [PVOffset, PVOffset + numEq).", "quantifier": "every combination of extensions and component numbers", "why_tests_cant": "the compile-time configurations are unbounded in the component numbers; tests instantiate a few", "anchors": ["opm/models/blackoil/blackoilindices.hh: BlackOilIndices", "opm/models/blackoil/blackoiltwophaseindices.hh: BlackOilTwoPhaseIndices"]}
{"id": "C56", "title": "The number of switched cells is counted once", "statement": "The reported number of primary variable switches of an iteration is the number of cells on all processes whose meaning was switched in it.", "quantifier": "every number of processes", "why_tests_cant": "all process counts; sequential tests cannot see it", "anchors": ["opm/models/blackoil/blackoilnewtonmethod.hh: update_, endIteration_"]}
{"id": "C57", "title": "PVS primary variables represent the fluid state", "statement": "Assigning a fluid state in equilibrium to the PVS primary variables and reading the saturations back gives the saturations of the state, the pressure of the first phase and the composition of the present phase with the lowest index for every set of present phases, and one Newton update changes no saturation of a present phase by more than 20%.", "quantifier": "every number of phases, phase presence and saturations", "why_tests_cant": "all phase presences and numbers of phases", "anchors": ["opm/models/pvs/pvsprimaryvariables.hh: assignNaive, explicitSaturationValue, lowestPresentPhaseIdx", "opm/models/pvs/pvsnewtonmethod.hh: updatePrimaryVariables_"]}
{"id": "C58", "title": "Restart files round-trip entity data", "statement": "Reading a restart file that was written from a grid of the same size restores, for every degree of freedom, the written values; any mismatch of sections, cookie or number of entities is reported instead of being loaded silently.", "quantifier": "every grid size and every value sequence", "why_tests_cant": "round-trip over all contents", "anchors": ["opm/models/io/restart.hh: serializeBegin, serializeEntities, deserializeEntities, deserializeSectionBegin, deserializeSectionEnd, deserializeBegin"]}
{"id": "C59", "title": "Default values read back exactly", "statement": "A parameter which neither the command line nor the parameter file sets is read back with exactly the default value the program registered for it (or set with SetDefault).", "quantifier": "every default value of every parameter type", "why_tests_cant": "all floating point values; tests use short decimal defaults", "anchors": ["opm/models/utils/parametersystem.hh: Register, SetDefault, Get"]}
{"id": "C60", "title": "The printed parameter list is a valid parameter file", "statement": "Every line of the printed list of parameter values, used as a line of a parameter file, assigns exactly the printed value to the printed parameter.", "quantifier": "every parameter name and value text", "why_tests_cant": "all value texts including quotes and backslashes", "anchors": ["opm/models/utils/parametersystem.hh: printParamList_, parseParameterFile"]}
{"id": "C61", "title": "A simulation ends", "statement": "If the time integration never completes a step smaller than some fixed positive size, and the problem does not move the end time away, then every run of the simulator reaches its end after finitely many callbacks.", "quantifier": "every problem, initial clock and step size sequence bounded away from zero", "why_tests_cant": "termination for all inputs", "anchors": ["opm/models/utils/simulator.hh: run, finished, maxTimeStepSize"]}
{"id": "C62", "title": "A simulation is not ended early", "statement": "A run which the problem does not stop ends only when the simulated time has reached the end time up to rounding.", "quantifier": "every end time, start time and step sequence", "why_tests_cant": "all magnitudes of times", "anchors": ["opm/models/utils/simulator.hh: run, finished"]}
{"id": "C63", "title": "Predictions of the end of episode and simulation are right", "statement": "willBeFinished() (episodeWillBeOver()) is true before a step exactly if finished() (episodeIsOver()) is true after the clock was advanced by that step.", "quantifier": "every clock state", "why_tests_cant": "all clock states", "anchors": ["opm/models/utils/simulator.hh: willBeFinished, finished, episodeWillBeOver, episodeIsOver"]}
{"id": "C64", "title": "Black-oil restart data round-trips", "statement": "The primary variables and their meanings which the black-oil model writes for a degree of freedom are restored when the restart file is read, for every combination of modules.", "quantifier": "every set of enabled modules, every value and every meaning", "why_tests_cant": "all combinations of modules, meanings and values", "anchors": ["opm/models/blackoil/blackoilmodel.hh: serializeEntity, deserializeEntity"]}
{"id": "C65", "title": "A restarted run continues the interrupted run", "statement": "The callbacks, times and step sizes after a restart are those which the uninterrupted run would have had.", "quantifier": "every problem, every point at which the restart file is written", "why_tests_cant": "all crash points and histories", "anchors": ["opm/models/utils/simulator.hh: run, serialize, deserialize", "opm/models/io/restart.hh: Restart"]}
{"id": "C66", "title": "Destroying a tasklet runner completes its work", "statement": "Destroying a tasklet runner lets all tasklets which were dispatched finish, joins every worker and is free of undefined behaviour.", "quantifier": "every history of dispatches, every schedule of the worker threads", "why_tests_cant": "all interleavings", "anchors": ["opm/models/parallel/tasklets.hh: TaskletRunner::~TaskletRunner, run_"]}
{"id": "C67", "title": "A tasklet dispatched with zero invocations is not run", "statement": "Dispatching a tasklet with zero invocations runs it zero times and does not prevent later barriers from returning.", "quantifier": "every number of workers, every schedule", "why_tests_cant": "all interleavings", "anchors": ["opm/models/parallel/tasklets.hh: TaskletInterface, TaskletRunner::dispatch, run_, barrier"]}
{"id": "C68", "title": "The storage cache does not change the residual", "statement": "The storage terms of the residual are the same with and without the storage cache, in all Newton iterations of a time step and while numeric derivatives are computed.", "quantifier": "every sequence of evaluations in a time step, every solution, both settings of recycling", "why_tests_cant": "all histories of evaluations", "anchors": ["opm/models/discretization/common/fvbaselocalresidual.hh: evalVolumeTerms_"]}
{"id": "C69", "title": "Solution vectors have one entry per degree of freedom", "statement": "After auxiliary modules were added or cleared, the solution vectors have exactly one entry for each of the degrees of freedom.", "quantifier": "every sequence of additions and clearings", "why_tests_cant": "all histories", "anchors": ["opm/models/discretization/common/fvbasediscretization.hh: addAuxiliaryModule, clearAuxiliaryModules, numTotalDof"]}
{"id": "C70", "title": "Updated coefficients of connections take effect", "statement": "After the problem has changed coefficients of connections (transmissibilities, thermal half transmissibilities, diffusivities) and updateDiscretizationParameters() was called, the linearizer uses the current ones.", "quantifier": "every network and every sequence of changes", "why_tests_cant": "all histories", "anchors": ["opm/models/discretization/common/tpfalinearizer.hh: updateDiscretizationParameters, updateStoredTransmissibilities, createMatrix_"]}
{"id": "C71", "title": "Constraints are collected with any number of threads", "statement": "Every degree of freedom which the problem constrains is constrained in the linear system, without undefined behaviour, for every number of threads and every schedule.", "quantifier": "every interleaving of the threads", "why_tests_cant": "all interleavings", "anchors": ["opm/models/discretization/common/fvbaselinearizer.hh: updateConstraintsMap_"]}
{"id": "C72", "title": "The two linearizers assemble the same linear system", "statement": "If the degrees of freedom are the cells, the general linearizer and the two-point flux linearizer assemble the same residual and matrix (up to the division by the volume for volumetric residuals).", "quantifier": "every network of cells, all flux, storage, source and boundary laws", "why_tests_cant": "an identity over all networks and laws", "anchors": ["opm/models/discretization/common/fvbaselinearizer.hh: linearizeDomain, linearizeElement_", "opm/models/discretization/common/fvbaselocalresidual.hh: eval", "opm/models/discretization/common/tpfalinearizer.hh: linearize_"]}
{"id": "C73", "title": "Threaded assembly with the general linearizer is schedule independent", "statement": "Assembling with any number of threads gives the residual and matrix of the sequential assembly: in any interleaving if the degrees of freedom are the cells, and in any order of the elements if the matrix is locked.", "quantifier": "every interleaving and every order of elements", "why_tests_cant": "all interleavings", "anchors": ["opm/models/discretization/common/fvbaselinearizer.hh: linearize_, linearizeElement_", "opm/models/discretization/ecfv/ecfvdiscretization.hh: UseLinearizationLock"]}
{"id": "C74", "title": "Two-point gradients are exact along the line between cell centres", "statement": "The gradient which the two-point gradient calculator computes has the exact slope along the line between the two positions for every quantity, and is the exact gradient of affine quantities which vary along this line only.", "quantifier": "every dimension, every pair of different positions, every quantity", "why_tests_cant": "an identity over all reals", "anchors": ["opm/models/discretization/common/fvbasegradientcalculator.hh: calculateGradient, calculateBoundaryGradient"]}
{"id": "C75", "title": "BiCGStab computes the iterates of the published algorithm", "statement": "With a linear operator and preconditioner, the iterates of the solver are those of the preconditioned BiCGStab algorithm as published, each residual update is orthogonal to the shadow residual and the second step minimises the norm of the residual, although the code reuses vectors for several purposes.", "quantifier": "every linear operator, preconditioner, right hand side and number of iterations", "why_tests_cant": "an identity over all operators and iteration counts", "anchors": ["opm/simulators/linalg/bicgstabsolver.hh: BiCGStabSolver::apply"]}
{"id": "C76", "title": "BiCGStab stops at the first iterate which meets the criterion", "statement": "The solver returns success as soon as one of its iterates meets the convergence criterion.", "quantifier": "every linear operator, right hand side and criterion", "why_tests_cant": "all operators and right hand sides", "anchors": ["opm/simulators/linalg/bicgstabsolver.hh: BiCGStabSolver::apply"]}
{"id": "C77", "title": "Failures during a Newton iteration are agreed on by all processes", "statement": "If anything attempted in a Newton iteration (linearization, preparing or running the linear solver, update, post-processing) fails on some processes, all processes leave the iteration with an exception at the first such place; if nothing fails none does; and processes never wait for each other for ever.", "quantifier": "every number of processes, every set of failures and every interleaving of the processes", "why_tests_cant": "all schedules and failure patterns of arbitrarily many processes", "anchors": ["opm/models/nonlinear/newtonmethod.hh: apply, update_, endIteration_", "opm/models/discretization/common/fvbaselinearizer.hh: linearizeDomain, linearizeAuxiliaryEquations", "opm/models/discretization/common/tpfalinearizer.hh: linearizeDomain", "opm/simulators/linalg/parallelbasebackend.hh: solve, preparePreconditioner_", "opm/models/blackoil/blackoilnewtonmethod.hh: update_, endIteration_"]}
{"id": "C78", "title": "A fluid state stored in black-oil primary variables can be read back", "statement": "If a physical fluid state (saturations of the active phases summing up to one, pressures differing by the capillary pressures, phases in contact saturated with each other) is assigned to primary variables, then the intensive quantities computed from them have the same saturations, pressures and compositions of the present phases.", "quantifier": "every physical fluid state, every capillary pressure law and PVT relation, every set of active phases and enabled dissolutions", "why_tests_cant": "the fluid states and laws are continuous families", "anchors": ["opm/models/blackoil/blackoilprimaryvariables.hh: assignNaive", "opm/models/blackoil/blackoilintensivequantities.hh: update"]}
{"id": "C79", "title": "Phases appear continuously in the black-oil model", "statement": "When switching primary variables makes phases appear, the saturations and pressures which the intensive quantities compute are the same before and after. When solid salt appears or vanishes, no salt is gained or lost beyond the tolerance of the switch.", "quantifier": "every state of the variables and every capillary pressure law", "why_tests_cant": "the states and laws are continuous families", "anchors": ["opm/models/blackoil/blackoilprimaryvariables.hh: adaptPrimaryVariables", "opm/models/blackoil/blackoilintensivequantities.hh: update"]}
{"id": "C80", "title": "Fluid states in equilibrium are not switched", "statement": "If a physical fluid state in which no phase is oversaturated is assigned to black-oil primary variables, then switching leaves them as they are, whatever the oscillation threshold.", "quantifier": "every physical fluid state, every capillary pressure law and PVT relation", "why_tests_cant": "the fluid states and laws are continuous families", "anchors": ["opm/models/blackoil/blackoilprimaryvariables.hh: assignNaive, adaptPrimaryVariables"]}
{"id": "C81", "title": "Wrapped help lines fit the terminal", "statement": "No line of a help message which was broken into lines is longer than the width of the terminal (or than the indentation and one character if the terminal is narrower than that).", "quantifier": "every text, every indentation and every width", "why_tests_cant": "texts of unbounded length", "anchors": ["opm/models/utils/parametersystem.hh: breakLines_"]}
{"id": "C82", "title": "Fluxes between two volumes are opposite", "statement": "The flux of a component over a face which is computed for the volume on one side is the opposite of the one computed for the volume on the other side; in particular both sides agree which of them is upstream.", "quantifier": "every pair of volumes with any positions, pressures, densities, mobilities and permeabilities and any face between them", "why_tests_cant": "the states and geometries are continuous families", "anchors": ["opm/models/common/darcyfluxmodule.hh: calculateGradients_, calculateFluxes_", "opm/models/common/transfluxmodule.hh: calculateGradients_", "opm/models/blackoil/blackoillocalresidualtpfa.hh: calculateFluxes_"]}
{"id": "C83", "title": "Fluids at rest stay at rest", "statement": "If the pressures of a phase in two neighbouring volumes, or in a volume and on its boundary, differ by the weight of the fluid between them, nothing flows.", "quantifier": "every geometry, density, gravity and permeability", "why_tests_cant": "the states and geometries are continuous families", "anchors": ["opm/models/common/darcyfluxmodule.hh: calculateGradients_, calculateBoundaryGradients_", "opm/models/common/transfluxmodule.hh: calculateGradients_"]}
{"id": "C84", "title": "Flow goes down the potential and takes along what is upstream", "statement": "The volume flux between two volumes is proportional to the drop of the potential and to the mobility of the volume with the higher potential, and the fluid which flows has the composition of the volume it flows out of.", "quantifier": "every pair of volumes with any positions, pressures, densities, mobilities and permeabilities", "why_tests_cant": "the states and geometries are continuous families", "anchors": ["opm/models/common/darcyfluxmodule.hh: calculateGradients_, calculateFilterVelocity_", "opm/models/common/transfluxmodule.hh: calculateGradients_"]}
{"id": "C85", "title": "Free-flow boundaries: inflow brings the prescribed fluid", "statement": "What flows out over a free-flow boundary has the composition of the fluid in the domain, what flows in that of the prescribed fluid.", "quantifier": "every geometry, gravity, state of the volume and prescribed state", "why_tests_cant": "the states and geometries are continuous families", "anchors": ["opm/models/common/darcyfluxmodule.hh: calculateBoundaryGradients_", "opm/models/immiscible/immiscibleboundaryratevector.hh: setFreeFlow, setInFlow, setOutFlow", "opm/models/ncp/ncpboundaryratevector.hh: setFreeFlow, setInFlow, setOutFlow"]}
{"id": "C86", "title": "Black-oil boundary rates count components like the storage terms", "statement": "The rate of a component at a free-flow boundary of the black-oil models is the sum over the phases of the volume flux times the amount of the component per volume, in the same units as the storage terms, whether mass or surface volumes are conserved.", "quantifier": "every fluid state, every set of active phases and solubilities, both kinds of conservation, every volume flux", "why_tests_cant": "the states are continuous families", "anchors": ["opm/models/blackoil/blackoilboundaryratevector.hh: setFreeFlow", "opm/models/blackoil/blackoillocalresidualtpfa.hh: computeBoundaryFluxFree", "opm/models/blackoil/blackoillocalresidual.hh: adaptMassConservationQuantities_, evalPhaseFluxes_"]}
{"id": "C87", "title": "Inflow and outflow boundaries are one-way", "statement": "Nothing leaves the domain over an inflow boundary and nothing enters it over an outflow boundary; what flows in the permitted direction is what flows over a free-flow boundary.", "quantifier": "every state, prescribed fluid and geometry, every number of phases and equations", "why_tests_cant": "the states are continuous families", "anchors": ["opm/models/immiscible/immiscibleboundaryratevector.hh: setFreeFlow, setInFlow, setOutFlow", "opm/models/ncp/ncpboundaryratevector.hh: setFreeFlow, setInFlow, setOutFlow"]}
{"id": "C88", "title": "Black-oil storage and fluxes count components the same way", "statement": "The stored amount of a component is the sum over the phases of the pore volume filled times the amount per volume, its flux the sum of the volume fluxes times the amount per volume upstream, with the same amounts per volume (dissolved gas, vaporized oil and water, gas in water) in both.", "quantifier": "every fluid state, every set of active phases and solubilities, both kinds of conservation", "why_tests_cant": "the states are continuous families", "anchors": ["opm/models/blackoil/blackoillocalresidual.hh: computeStorage, computeFlux, evalPhaseFluxes_", "opm/models/blackoil/blackoillocalresidualtpfa.hh: computeStorage, evalPhaseFluxes_"]}
{"id": "C89", "title": "Rates given as mass, amount of substance or volume agree", "statement": "A source or boundary rate given as the mass, the amount of substance or the volume of the same fluid results in the same rate in all equations.", "quantifier": "every fluid, composition and volume", "why_tests_cant": "the states are continuous families", "anchors": ["opm/models/ncp/ncpratevector.hh", "opm/models/pvs/pvsratevector.hh", "opm/models/flash/flashratevector.hh", "opm/models/immiscible/immiscibleratevector.hh", "opm/models/richards/richardsratevector.hh", "opm/models/blackoil/blackoilratevector.hh"]}
{"id": "C90", "title": "Transmissibilities belong to their faces", "statement": "The transmissibility of an interior face is the same from both sides, positive, and its inverse is the sum of those of the half cells; the transmissibility of a boundary face is the one of its half cell.", "quantifier": "every stencil, geometry and permeability", "why_tests_cant": "the geometries are continuous families", "anchors": ["opm/models/common/transfluxmodule.hh: transmissibility_, transmissibilityBoundary_"]}
{"id": "C91", "title": "NCP Newton updates are limited", "statement": "One Newton update of the NCP model changes no phase saturation, including that of the last phase, by more than 0.2, the pressure by at most 20 %, and no fugacity by more than 70 % of the smallest activity coefficient or of 0.1 % of the pressure; fugacities never become negative, and updates within the limits are applied unchanged after the first three iterations.", "quantifier": "every number of phases and components, every current value, update vector and iteration number", "why_tests_cant": "values and update vectors are continuous families and the numbers of phases and components are unbounded", "anchors": ["opm/models/ncp/ncpnewtonmethod.hh: updatePrimaryVariables_, clampValue_", "opm/models/ncp/ncpindices.hh", "opm/models/ncp/ncpintensivequantities.hh: update"]}
{"id": "C92", "title": "NCP saturations stay physical in the first iterations", "statement": "During the first three Newton iterations of a time step, an update of the NCP model which starts from saturations between zero and one ends with saturations between zero and one, and a fugacity below the smallest activity coefficient does not exceed it.", "quantifier": "every number of phases and components, every current value and update vector", "why_tests_cant": "values and update vectors are continuous families", "anchors": ["opm/models/ncp/ncpnewtonmethod.hh: updatePrimaryVariables_"]}
{"id": "C93", "title": "The phase presence equations express phase presence", "statement": "The phase presence equations of the NCP model are fulfilled exactly if no saturation is negative, the mole fractions of no phase sum up to more than one, and those of every present phase sum up to exactly one; residuals of at most a tolerance mean that these conditions hold up to the tolerance.  The sources of the other equations are those of the problem.", "quantifier": "every fluid state, number of phases and components", "why_tests_cant": "fluid states are continuous families", "anchors": ["opm/models/ncp/ncplocalresidual.hh: computeSource, phaseNcp"]}
{"id": "C94", "title": "Accepted NCP solutions obey the phase presence conditions", "statement": "If the Newton method of the NCP model accepts a solution, the weighted residuals of all equations, including the phase presence conditions, are at most the tolerance.", "quantifier": "every residual, grid, set of constraints and weights", "why_tests_cant": "residuals are continuous families on grids of any size", "anchors": ["opm/models/ncp/ncpnewtonmethod.hh: preSolve_"]}
{"id": "C95", "title": "Fluid states stored in NCP primary variables can be read back", "statement": "Saturations, phase pressures and, in equilibrium, mole fractions which are stored in the primary variables of the NCP model are those which are read back from them; the smallest activity coefficients used for scaling are positive and attained by a phase, or an exception is thrown.", "quantifier": "every fluid state in capillary and thermodynamic equilibrium, every reference phase, number of phases and components", "why_tests_cant": "fluid states are continuous families", "anchors": ["opm/models/ncp/ncpprimaryvariables.hh: assignNaive", "opm/models/ncp/ncpintensivequantities.hh: update", "opm/models/ncp/ncpmodel.hh: updatePVWeights"]}
{"id": "C96", "title": "PT-flash Newton updates are limited", "statement": "One Newton update of the PT-flash model with a positive pressure is well defined, changes the pressure by at most 20 % and no total mole fraction, including that of the last component, by more than 0.2; stored mole fractions stay between 1e-8 and one minus 1e-8, and updates within the limits are applied unchanged.", "quantifier": "every number of components, every current value and update vector", "why_tests_cant": "values and update vectors are continuous families and the number of components is unbounded", "anchors": ["opm/models/ptflash/flashnewtonmethod.hh: updatePrimaryVariables_"]}
{"id": "C97", "title": "PT-flash cells always have a valid composition", "statement": "Whatever the primary variables of the PT-flash model are, the total mole fractions handed to the flash calculation are positive and sum up to one, and are the stored ones if those are at least 1e-8; the saturations are not negative, sum up to one and are the volume fractions of the phases.", "quantifier": "every primary variable vector and number of components, every liquid fraction and compressibility factors", "why_tests_cant": "the values are continuous families", "anchors": ["opm/models/ptflash/flashintensivequantities.hh: update"]}
{"id": "C98", "title": "Fluid states stored in PT-flash primary variables can be read back", "statement": "The total mole fractions which are stored are the ratios of the total amounts of the components; the pressure is that of the first phase.", "quantifier": "every fluid state, number of phases and components", "why_tests_cant": "fluid states are continuous families", "anchors": ["opm/models/ptflash/flashprimaryvariables.hh: assignNaive"]}
{"id": "C99", "title": "Richards updates change saturations by at most 0.2", "statement": "In the first five iterations of the Newton method an update of the Richards model changes the liquid saturation by at most 0.2; later, and if it stays between the corresponding pressures, it is applied unchanged.", "quantifier": "every monotone invertible capillary pressure law, reference pressure, current pressure and update", "why_tests_cant": "laws and values are continuous families", "anchors": ["opm/models/richards/richardsnewtonmethod.hh: updatePrimaryVariables_", "opm/models/richards/richardsintensivequantities.hh: update"]}
{"id": "C100", "title": "States stored in Richards primary variables can be read back", "statement": "A state given by the pressure and the saturation of either phase is stored such that this saturation is read back.", "quantifier": "every monotone invertible capillary pressure law, pressure and saturation", "why_tests_cant": "laws and values are continuous families", "anchors": ["opm/models/richards/richardsprimaryvariables.hh: assignImmiscibleFromWetting, assignImmiscibleFromNonWetting, assignNaive"]}
{"id": "C101", "title": "Grid adaptation marks elements at fronts and counts them", "statement": "An element is marked for refinement exactly if the saturation of some phase varies strongly in it and it has been refined less than twice, for coarsening only if no phase varies; the number returned on every process is the number of marked elements of all processes.", "quantifier": "every distribution of elements over processes, number of phases and degrees of freedom per element, all saturations", "why_tests_cant": "grids and numbers of phases are unbounded, saturations continuous families", "anchors": ["opm/models/common/multiphasebaseproblem.hh: markForGridAdaptation"]}
{"id": "C102", "title": "Each process gets exactly the cells of its overlap", "statement": "For every grid distributed by cells and every positive overlap size, setting up the overlaps never deadlocks and comes to an end. Then all cells are numbered consecutively, without repetition and the same on all processes; each process has its own cells and those copies of others' cells which are fewer than overlap-size steps inside from the border, and no others; the owner of a cell is its master on every process; border distances are the least number of steps; native and black-listed indices lead to the right cells.", "quantifier": "every distribution of a grid over any number of processes, matrix pattern and positive overlap size, every schedule of the processes and every amount of buffering by the MPI library", "why_tests_cant": "numbers of processes, grids and interleavings are unbounded; a test runs one schedule of one distribution", "anchors": ["opm/simulators/linalg/foreignoverlapfrombcrsmatrix.hh", "opm/simulators/linalg/domesticoverlapfrombcrsmatrix.hh", "opm/simulators/linalg/blacklist.hh", "opm/simulators/linalg/globalindices.hh", "opm/simulators/linalg/overlaptypes.hh"]}
{"id": "C103", "title": "The overlaps which are set up suit distributed vectors", "statement": "The overlaps which the processes set up are coherent: peers are mutual, all processes agree on the master of an unknown, what one sends another has. Assigning native vectors gives every copy of a cell the value of its owner.", "quantifier": "every distribution of a grid by its cells, positive overlap size, all values, every schedule and amount of buffering", "why_tests_cant": "numbers of processes, grids and interleavings are unbounded", "anchors": ["opm/simulators/linalg/domesticoverlapfrombcrsmatrix.hh", "opm/simulators/linalg/overlappingblockvector.hh: assign, sync"]}
{"id": "C104", "title": "The border list says which own cells other processes have copies of", "statement": "After the border list of cells has been set up it has exactly one entry for each own cell and each process which has a copy of it, with the right indices on both sides, and the lists of black-listed cells of the peers are complete.", "quantifier": "every distribution of a grid over any number of processes and every order of communication", "why_tests_cant": "grids and numbers of processes are unbounded; failures need special shapes of the parts", "anchors": ["opm/simulators/linalg/elementborderlistfromgrid.hh"]}
{"id": "C105", "title": "The matrix of each process is its part of the matrix of the whole grid", "statement": "After the overlaps and matrices have been set up and native matrices assigned, a process has an entry for two cells of its overlap exactly if the matrix of the whole grid has one (the row of a cell being that of its owner), with the same value. No process waits forever and setting up comes to an end.", "quantifier": "every distribution of a grid over any number of processes, positive overlap size, matrix and previous values, every schedule and every amount of buffering", "why_tests_cant": "numbers of processes, matrices and interleavings are unbounded", "anchors": ["opm/simulators/linalg/overlappingbcrsmatrix.hh: buildIndices_, assignFromNative, syncAdd", "opm/simulators/linalg/parallelbasebackend.hh: setMatrix"]}
{"id": "C106", "title": "Parallel products are those of the matrix of the whole grid", "statement": "Applying the overlapping operator to a vector whose copies agree gives on every process and for every cell of its overlap the value of the product with the matrix of the whole grid; applyscaleadd adds the multiple of it. The result does not depend on the partition, the overlap size or the schedule.", "quantifier": "every distribution of a grid by its cells, positive overlap size, matrix and vectors over any semiring, every schedule and amount of buffering", "why_tests_cant": "partitions, sizes and interleavings are unbounded; a test compares one partition", "anchors": ["opm/simulators/linalg/overlappingoperator.hh: apply, applyscaleadd", "opm/simulators/linalg/overlappingbcrsmatrix.hh", "opm/simulators/linalg/overlappingblockvector.hh: sync"]}
{"id": "C107", "title": "A property lookup finds the definition that applies", "statement": "Looking up a property for a type tag compiles exactly if the tag, a tag it inherits from, or a tag spliced in by one of these defines it. The definition used is the first in the order: the tag, then what it inherits from, depth first in the order listed, then splices. Own definitions win, splices only serve as defaults, and an inherited definition is not used if a tag between overrides it.", "quantifier": "every hierarchy of type tags and every property", "why_tests_cant": "every application has its own hierarchy; a test fixes one", "anchors": ["opm/models/utils/propertysystem.hh: GetProp, GetDefined, GetDefinedSplice"]}
{"id": "C108", "title": "Gathered strings are those of all processes", "statement": "gatherStrings returns on every process the strings of all processes that are not empty, unchanged and in the order of the ranks.", "quantifier": "every number of processes, all strings", "why_tests_cant": "numbers of processes and lengths are unbounded; the failure needs strings of gigabytes", "anchors": ["opm/models/parallel/mpiutil.hh: gatherStrings, Packer"]}
{"id": "C109", "title": "Human readable times mean the time", "statement": "The text for a time denotes that time up to half of the last digit kept, and its numbers are those of a clock and calendar: whole numbers below the next larger unit, and a last number below it.", "quantifier": "every time", "why_tests_cant": "times are real numbers; the failures are rounding cases next to whole units", "anchors": ["opm/models/utils/simulator.hh: humanReadableTime"]}
{"id": "C110", "title": "The number of threads is what was asked for", "statement": "After the thread manager is initialised, the number of threads is the one asked for, or the one of the runtime if 'automatic' is chosen, and one without OpenMP; it is at least one and all thread indices are below it. Values that make no sense are rejected and leave the manager usable.", "quantifier": "every value of the parameter, every state and every way of compiling", "why_tests_cant": "the parameter is an arbitrary integer and the builds cannot be tested together", "anchors": ["opm/models/parallel/threadmanager.hh: init, maxThreads, threadId"]}
{"id": "C111", "title": "Message buffers own their memory", "statement": "No sequence of constructing, copying, resizing and destroying message buffers frees memory twice, uses freed memory or leaks; every buffer has room for exactly its number of elements, and a message carries exactly its bytes.", "quantifier": "every sequence of operations on any number of buffers, all sizes and element types", "why_tests_cant": "sequences and sizes are unbounded", "anchors": ["opm/models/parallel/mpibuffer.hh: MpiBuffer"]}
{"id": "C112", "title": "Allocated memory is large enough and aligned", "statement": "The aligned allocator accepts exactly powers of two as alignments, and allocating n objects gives memory for n objects whose address is a multiple of the requested alignment and of the one of the type, or reports that there is no memory.", "quantifier": "every alignment, type and number of objects", "why_tests_cant": "sizes range over all 64 bit numbers; the failure needs an overflow", "anchors": ["opm/models/utils/alignedallocator.hh: aligned_allocator, aligned_alloc, is_alignment"]}
{"id": "C113", "title": "Prefetch friendly vectors return what was stored", "statement": "After updating a prefetch friendly grid vector, reading the entry of an element and one of its local degrees of freedom returns what the distribution function stored for exactly these, and nothing outside the container is touched.", "quantifier": "every grid, numbering of elements, stencil sizes and previous contents", "why_tests_cant": "grids are unbounded", "anchors": ["opm/models/utils/pffgridvector.hh: update, get"]}
{"id": "C114", "title": "Switching primary variables of the PVS model", "statement": "After a Newton iteration the primary variables of each degree of freedom of the interior describe the fluid state that belonged to its variables before, with exactly the phases that exist there; all others are untouched. Whether phases changed anywhere, and whether switching failed anywhere, is known to all processes, and the reported number is the number of degrees of freedom whose phases changed.", "quantifier": "every fluid, grid, numbering, partition, solution and every pattern of failures", "why_tests_cant": "degrees of freedom are shared by elements and processes in unboundedly many ways", "anchors": ["opm/models/pvs/pvsmodel.hh: switchPrimaryVars_, switched", "opm/models/pvs/pvsnewtonmethod.hh: endIteration_"]}
{"id": "C115", "title": "Restart files of the PVS model restore the phases", "statement": "What the PVS model writes for the degrees of freedom is read back: all values and which phases are present, for the current and the previous time level.", "quantifier": "every number of degrees of freedom, all values, all sets of phases and previous contents", "why_tests_cant": "values and sizes are unbounded", "anchors": ["opm/models/pvs/pvsmodel.hh: serializeEntity, deserializeEntity"]}
{"id": "C116", "title": "Sub-control volumes partition the element", "statement": "The volumes of the sub-control volumes of an element of a vertex-centred grid are positive, each is the volume enclosed by its faces, and together they are the volume of the element.", "quantifier": "every line, triangle, quadrilateral, tetrahedron and hexahedron which is not degenerate", "why_tests_cant": "the corners range over a continuum of shapes", "anchors": ["opm/models/discretization/vcfv/vcfvstencil.hh: fillSubContVolData_, quadrilateralArea, tetrahedronVolume, pyramidVolume, prismVolume, hexahedronVolume"]}
{"id": "C117", "title": "Faces of vertex-centred control volumes close up and point from the interior to the exterior", "statement": "Each face between two sub-control volumes has positive area and a unit normal which points from the interior corner to the exterior corner; the faces of each sub-control volume, including its part of the surface of the element, form a closed surface; and the areas of boundary faces are those of these parts.", "quantifier": "every triangle, quadrilateral, tetrahedron and hexahedron which is not degenerate, and each of its corners, edges and faces", "why_tests_cant": "the corners range over a continuum of shapes", "anchors": ["opm/models/discretization/vcfv/vcfvstencil.hh: update, getFaceIndices, getEdgeIndices, normalOfQuadrilateral3D"]}
{"id": "C118", "title": "Local geometries of sub-control volumes", "statement": "The geometry of a sub-control volume maps the corners of the unit cube to its corners, its centre is the image of the middle, its Jacobian is the derivative of the map, and the integral of the integration element is its volume. The tables of the reference elements describe the sub-control volumes: points for which the corner is the closest in barycentric coordinates, with equal volumes which add up to that of the element.", "quantifier": "every dimension, all corners and all local positions; all corners of all reference elements", "why_tests_cant": "positions and corners form a continuum", "anchors": ["opm/models/utils/quadraturegeometries.hh: QuadrialteralQuadratureGeometry", "opm/models/discretization/vcfv/vcfvstencil.hh: VcfvScvGeometries"]}
{"id": "C119", "title": "Finite element values and gradients are exact for linear functions", "statement": "Interpolated values agree with the quantity at the corners, values and gradients of quantities which depend linearly on the position are exact, the gradient is the gradient of the interpolated value, and its derivatives by the primary variables are those of the quantity at the focused degree of freedom.", "quantifier": "every dimension, simplex and cube elements with any corners (not degenerate where gradients are taken), all local positions and quantities", "why_tests_cant": "positions, corners and values form a continuum", "anchors": ["opm/models/discretization/vcfv/p1fegradientcalculator.hh: prepare, calculateScalarValue, calculateGradient"]}
{"id": "C120", "title": "Extra components of the black-oil model are carried, not created", "statement": "Solvent, injected extra gas, polymer, foam, brine and microbial components crossing a face leave one cell at the rate at which they enter the other, the rate is the volume rate of the carrying phase times the concentration of the upstream cell, and what a cell contains is the concentration times the amount of the carrying phase, so that a cell without carrier contains none and a uniform concentration stays uniform.", "quantifier": "all states of two neighbouring cells, all volume rates and upstream directions, every choice of active extensions", "why_tests_cant": "states and rates form a continuum; the defects need phases which flow in opposite directions or vanish", "anchors": ["opm/models/blackoil/blackoilsolventmodules.hh: addStorage, computeFlux", "opm/models/blackoil/blackoilextbomodules.hh: addStorage, computeFlux", "opm/models/blackoil/blackoilpolymermodules.hh: addStorage, computeFlux", "opm/models/blackoil/blackoilfoammodules.hh: addStorage, computeFlux", "opm/models/blackoil/blackoilbrinemodules.hh: addStorage, computeFlux", "opm/models/blackoil/blackoilmicpmodules.hh: addStorage, computeFlux"]}
{"id": "C121", "title": "Solvent flows down its potential", "statement": "The volume rate of solvent through a face is mobility times transmissibility times the drop of the potential of the gas beyond the threshold, from the higher to the lower potential with the mobility of the upstream cell; it vanishes below the threshold, and the two cells of a face agree about it and about the upstream cell.", "quantifier": "all pressures, densities, depths, mobilities, thresholds and transmissibilities", "why_tests_cant": "values form a continuum; ties of the potentials have to be included", "anchors": ["opm/models/blackoil/blackoilsolventmodules.hh: updateVolumeFluxTrans, updateVolumeFluxPerm"]}
{"id": "C122", "title": "Mixed oil, gas and solvent lie between the pure fluids", "statement": "The densities and viscosities which the Todd-Longstaff mixing gives oil, gas and solvent lie between those of the pure fluids; without solvent or miscibility nothing changes, and with complete mixing every mixture has the saturation-weighted mean density.", "quantifier": "all saturations, viscosities, densities and mixing parameters", "why_tests_cant": "fractional powers of arbitrary reals; the defects need fluids which are all immobile or a partial overwrite", "anchors": ["opm/models/blackoil/blackoilsolventmodules.hh: effectiveProperties"]}
{"id": "C123", "title": "Relative permeabilities and pressures with solvent are consistent", "statement": "Whatever the saturations and the degree of miscibility, saturations sum to one, no solvent means the usual two- and three-phase functions, immiscible solvent shares the permeability of the gas, miscible solvent interpolates, and phase pressures differ by the capillary pressure of the saturation the miscibility prescribes, independently of which pressure is the unknown.", "quantifier": "all saturations, tables, miscibilities and all choices of the pressure variable", "why_tests_cant": "tables are arbitrary functions and saturations a continuum", "anchors": ["opm/models/blackoil/blackoilsolventmodules.hh: solventPreSatFuncUpdate_, solventPostSatFuncUpdate_"]}
{"id": "C124", "title": "Polymer makes water slower, never faster", "statement": "For every concentration, the mobility of water with polymer is positive, at most that of pure water, at least the one at the maximum concentration and full adsorption, polymer is never faster than the water which carries it, adsorbed polymer is not released where desorption is excluded, and both limits of the mixing parameter give the known formulas.", "quantifier": "all concentrations Newton can reach, viscosity tables, adsorption histories and mixing parameters", "why_tests_cant": "tables are arbitrary functions, exponents are real", "anchors": ["opm/models/blackoil/blackoilpolymermodules.hh: polymerPropertiesUpdate_", "opm/models/blackoil/blackoilnewtonmethod.hh: updatePrimaryVariables_"]}
{"id": "C125", "title": "The shear factor of polymer solves its equation", "statement": "The factor by which shear changes the flow of water is a solution of the implicit equation between sheared and unsheared velocity, does not depend on the direction of flow or on how a face is numbered, is one where there is no shear effect, and is found for every table.", "quantifier": "all velocities, concentrations and shear tables", "why_tests_cant": "an iteration whose convergence depends on real-valued tables", "anchors": ["opm/models/blackoil/blackoilpolymermodules.hh: computeShearFactor, updateShearMultipliers"]}
{"id": "C126", "title": "Microbes, oxygen, urea and calcite react as the balance of their mass demands", "statement": "In every cell the reaction sources are defined and consistent with each other: growth of suspended microbes and biofilm, attachment and detachment exchange mass between them, oxygen is only consumed, urea is turned into calcite in fixed proportion, nothing which is absent is consumed, and permeability falls monotonically with porosity down to its lower bound.", "quantifier": "all concentrations, flow rates, porosities and parameters which Newton's method can produce", "why_tests_cant": "the sources are rational functions of nine continuous quantities and exponents are arbitrary", "anchors": ["opm/models/blackoil/blackoilmicpmodules.hh: addSource, checkCloggingMICP, MICPPropertiesUpdate_", "opm/models/blackoil/blackoilnewtonmethod.hh: updatePrimaryVariables_", "opm/models/blackoil/blackoilintensivequantities.hh: update"]}
{"id": "C127", "title": "Energy is balanced between cells and at boundaries", "statement": "Heat conducted and carried out of one cell enters its neighbour, heat flows from hot to cold through a series resistance, insulating boundaries let nothing pass, every term of the energy equation is scaled by the same factor, and temperatures survive assignment and restart.", "quantifier": "all temperatures, conductivities, enthalpies, flow directions and both variants of the residual", "why_tests_cant": "fluxes are quotients of continuous quantities and must cancel for every pair of cells", "anchors": ["opm/models/blackoil/blackoilenergymodules.hh: addStorage, addFlux, updateEnergy, updateEnergyBoundary, addHeatFlux, assignPrimaryVars, deserializeEntity", "opm/models/blackoil/blackoilboundaryratevector.hh: setFreeFlow, setThermalFlow", "opm/models/blackoil/blackoillocalresidual.hh: computeFlux", "opm/models/blackoil/blackoillocalresidualtpfa.hh: computeFlux"]}
{"id": "C128", "title": "Diffusion and dispersion only exchange components", "statement": "Diffusive and dispersive fluxes leave the total amount of every component unchanged, run from high to low mole fraction, exchange equal amounts of the two components of a phase, and are added in the units of the equation they belong to.", "quantifier": "all compositions, coefficients, velocities and PVT regions of the two cells", "why_tests_cant": "conversion factors depend on two cells and cancel only for some of them", "anchors": ["opm/models/blackoil/blackoildiffusionmodule.hh: addDiffusiveFlux", "opm/models/blackoil/blackoildispersionmodule.hh: addDispersiveFlux"]}
{"id": "C129", "title": "Convective mixing lets dissolved gas sink", "statement": "Where the keyword is active in both cells, and only there, dissolved gas moves from the upper to the lower cell if saturated liquid is heavier, at a rate limited by the given fraction of the saturated content, together with the energy it carries; what leaves one cell enters the other, and each episode uses its own parameters.", "quantifier": "all cells, contents, salinities, depths, orders of the cells and histories of episodes", "why_tests_cant": "the upstream cell depends on the sign of a difference of continuous quantities", "anchors": ["opm/models/blackoil/blackoilconvectivemixingmodule.hh: addConvectiveMixingFlux, modifyAvgDensity, beginEpisode"]}
{"id": "C130", "title": "Mobilities, masses and pore volumes of a cell follow from its state", "statement": "The mobility used at each face is the relative permeability for the direction of that face over the viscosity, changed by every active module; the reported relative permeability is the one of the material law; the masses of the components add up to the pore volume times saturations and densities; porosity is the given one at the reference pressure, grows with pressure, stays positive, and is reduced by exactly the solids.", "quantifier": "all viscosities, relative permeabilities, directions, options, saturations, ratios, pressures and rock parameters", "why_tests_cant": "optional modules change some of the stored numbers and not others, and the expansion of the exponential is not monotone everywhere", "anchors": ["opm/models/blackoil/blackoilintensivequantities.hh: update, mobility, relativePermeability", "opm/models/common/directionalmobility.hh"]}
{"id": "C131", "title": "Fast flow obeys the Forchheimer equation", "statement": "For every potential gradient, mobility and coefficient there is exactly one velocity satisfying the Forchheimer equation; it points against the gradient and is never faster than Darcy's; a returned velocity satisfies it up to the tolerance; without inertia it is Darcy's; the rates seen from both sides of a face are opposite, mirroring the problem mirrors the flow, and an inflow has the properties of what flows in.", "quantifier": "all gradients, permeability tensors, coefficients, densities, viscosities and numbers of iterations", "why_tests_cant": "the velocity is the limit of an iteration for a nonlinear system", "anchors": ["opm/models/common/forchheimerfluxmodule.hh: calculateGradients_, calculateForchheimerFlux_, calculateBoundaryGradients_"]}
{"id": "C132", "title": "The stencil of a cell lists exactly its neighbours and faces", "statement": "After updating a cell-centred stencil for a cell, it describes exactly this cell, its faces with neighbours and those on the boundary, whatever it was used for before; the first cell is the primary one; normals point outward; and if each face is seen from both sides with opposite fluxes, all outflows of all cells sum to zero.", "quantifier": "all grids, histories of updates and antisymmetric fluxes", "why_tests_cant": "one object is reused for all elements of arbitrary grids", "anchors": ["opm/models/discretization/ecfv/ecfvstencil.hh: update, updateTopology, updatePrimaryTopology"]}
{"id": "C133", "title": "Visualisation files are complete whenever the program stops", "statement": "At every moment, also after a crash, the meta file on disk is empty or a complete document listing exactly the outputs which have been finished, in order, with their times and file names; data files contain the fields which were attached to them; only the first process writes the meta file; a continued run ends with the document of an uninterrupted run.", "quantifier": "all histories of outputs, all schedules of the writing thread, all crash points and restarts", "why_tests_cant": "the position of a crash or of another thread's step in the history is arbitrary", "anchors": ["opm/models/io/vtkmultiwriter.hh: beginWrite, attachScalarVertexData, endWrite, startMultiFile_, finishMultiFile_, serialize, deserialize"]}
{"id": "C134", "title": "Fields of visualisation files show the state", "statement": "Values of degrees of freedom are shown wherever they belong to a visited element, in whatever order threads visit elements; velocities and gradients are averages of those at the faces; fractions sum to one and lie between zero and one; different fields have different names; at the corners of an element the values of these corners are shown.", "quantifier": "all states, grids, orders of elements, interleavings of threads, names and shapes of elements", "why_tests_cant": "buffers are filled element by element by several threads", "anchors": ["opm/models/io/vtkmultiphasemodule.hh: processElement, commitBuffers", "opm/models/io/vtkcompositionmodule.hh", "opm/models/io/vtkdiscretefracturemodule.hh", "opm/models/io/vtkdiffusionmodule.hh", "opm/models/io/baseoutputmodule.hh: commitPhaseBuffer_", "opm/models/io/vtkscalarfunction.hh: evaluate"]}
{"id": "C135", "title": "Fractures take the place of the matrix", "statement": "An edge is a fracture exactly if it has been marked, in either orientation. Fractures have the volume of their edges times their width. A sub-control volume contains the fluid of the matrix outside of its fractures and the fluid within them, and a face carries the flux of both; fractures with the properties of the matrix make no difference. Fluid in fractures flows down its potential with the properties of its origin, oppositely seen from the other vertex. Saturations are fractions; primary variables set from the state in a fracture represent it. An unchanged state has no storage rate.", "quantifier": "all histories of marks, grids, widths, states, capillary laws and permeability tensors", "why_tests_cant": "fracture networks, grids and tensors are arbitrary", "anchors": ["opm/models/discretefracture/fracturemapper.hh", "opm/models/discretefracture/discretefractureintensivequantities.hh: update", "opm/models/discretefracture/discretefracturelocalresidual.hh: computeStorage, computeFlux", "opm/models/discretefracture/discretefractureextensivequantities.hh: update", "opm/models/discretefracture/discretefractureprimaryvariables.hh: assignNaiveFromFracture", "opm/models/discretefracture/discretefracturemodel.hh"]}
{"id": "C136", "title": "With automatic differentiation the derivatives of fluxes are those of the fluxes", "statement": "The derivatives which the fluxes over a face carry, and which become entries of the Jacobian, are the derivatives of these fluxes with regard to the primary variables of the degree of freedom in focus, wherever the upstream direction does not change. The residual does not depend on which degree of freedom is in focus.", "quantifier": "all geometries, states of both sides, dependences of quantities on the primary variables and choices of the focus", "why_tests_cant": "derivatives are limits; a wrong derivative only slows convergence", "anchors": ["opm/models/common/darcyfluxmodule.hh: calculateGradients_, calculateBoundaryGradients_, calculateFluxes_", "opm/models/common/energymodule.hh: addAdvectiveFlux, addDiffusiveFlux, update_, updateBoundary_", "opm/models/common/diffusionmodule.hh: addDiffusiveFlux, update_", "opm/models/immiscible/immisciblelocalresidual.hh: addAdvectiveFlux", "opm/models/flash/flashlocalresidual.hh", "opm/models/pvs/pvslocalresidual.hh", "opm/models/ncp/ncplocalresidual.hh", "opm/models/discretization/common/fvbasegradientcalculator.hh"]}
{"id": "C137", "title": "Heat and diffusing components are exchanged, not created", "statement": "What leaves a volume by conduction, diffusion or with the flow enters the other volume of the face. Heat is conducted from warm to cold, also at boundaries; components diffuse from where they are more concentrated, within the phases which are present, the better the more of the phase there is, and not better than in the pure phase. Diffusion replaces components by one another. It also acts at boundaries where a composition is prescribed.", "quantifier": "all geometries, states, coefficients, porosities and saturations", "why_tests_cant": "the quantities are real numbers", "anchors": ["opm/models/common/energymodule.hh: addDiffusiveFlux, update_, updateBoundary_", "opm/models/common/diffusionmodule.hh: addDiffusiveFlux, update_, updateBoundary_", "opm/models/flash/flashboundaryratevector.hh: setFreeFlow", "opm/models/ncp/ncpboundaryratevector.hh: setFreeFlow", "opm/models/pvs/pvsboundaryratevector.hh: setFreeFlow"]}
{"id": "C138", "title": "Boundary conditions see their own face, and the check of conservation accepts what has converged", "statement": "When the boundary condition of a face is evaluated, the intersection offered to the problem is the one the face belongs to. The debugging check of conservation compares the change of what is stored with the rates of sources and boundary conditions: it measures the sum of the residuals and accepts every time step whose residuals are within the tolerance.", "quantifier": "all elements, orders of intersections, grids, states, rates and tolerances", "why_tests_cant": "the intersection is an iterator moved along with a loop over faces; the check sums over arbitrary grids", "anchors": ["opm/models/discretization/common/fvbaseboundarycontext.hh: increment, intersection", "opm/models/discretization/common/fvbaselocalresidual.hh: evalBoundary_, evalStorage", "opm/models/discretization/common/fvbasediscretization.hh: checkConservativeness, globalStorage"]}
{"id": "C139", "title": "Data attached to cells survives adaptation of the grid", "statement": "When a cell is refined its parts get its data; when cells are coarsened the resulting cell gets the data of one of its parts; nothing else changes. However often cells are refined and coarsened, every cell has data, and only values which were there before; coarsening what was refined restores it. Data stays where it was, integrals of data are conserved, and cells which are moved to another process take their data along.", "quantifier": "all hierarchies, data and sequences of refinements and coarsenings", "why_tests_cant": "adaptation histories are unbounded", "anchors": ["opm/models/discretization/common/restrictprolong.hh: CopyRestrictProlong"]}
{"id": "C140", "title": "Every primary variable and every equation has a name of its own", "statement": "The names which a model gives to its primary variables are not empty and different from each other, and so are those of its equations, if phases and components have different names. A name says what the equation conserves. Output fields made from them do not hide each other.", "quantifier": "all numbers and names of phases and components, with and without energy, and all combinations of modules of the black-oil model", "why_tests_cant": "names depend on the fluid system and on combinations of modules which are instantiated separately", "anchors": ["opm/models/immiscible/immisciblemodel.hh: primaryVarName, eqName", "opm/models/pvs/pvsmodel.hh", "opm/models/ncp/ncpmodel.hh", "opm/models/flash/flashmodel.hh", "opm/models/ptflash/flashmodel.hh", "opm/models/blackoil/blackoilmodel.hh: primaryVarName, eqName", "opm/models/discretization/common/fvbasediscretization.hh: addConvergenceVtkFields", "opm/models/io/baseoutputmodule.hh: commitPriVarsBuffer_"]}
{"id": "C141", "title": "The multi-grid solver gets a correct description of the distribution", "statement": "The set of indices which each process passes to the parallel algebraic multi-grid solver lists exactly the cells of its overlap, each once and in the order of its matrix rows, under the numbers all processes agree on. Each cell is marked as owned by exactly one process, the one which owns it in the grid, and as shared exactly if another process has it too.", "quantifier": "all grids, distributions, sizes of the overlap, schedules and buffering of messages", "why_tests_cant": "distributions and schedules are unbounded", "anchors": ["opm/simulators/linalg/parallelamgbackend.hh: setupAmgIndexSet_", "opm/simulators/linalg/domesticoverlapfrombcrsmatrix.hh: iAmMasterOf, isInOverlap, isLocal", "opm/simulators/linalg/foreignoverlapfrombcrsmatrix.hh"]}
{"id": "C142", "title": "Processes which share vertices get exactly the vertices of their overlap", "statement": "For grids whose degrees of freedom are vertices, which several processes may share, setting up the overlaps never deadlocks and comes to an end, for every overlap size. Then each process has exactly the vertices which are at most overlap-size steps away from its own along entries of the matrices of all processes, also those it has to be told about by processes in between; its peers are the processes whose overlaps contain its vertices; all processes agree that the process of the lowest rank with a vertex is its master; border distances are the numbers of steps. Assigning native vectors gives all copies the value of the master or, if asked for, the sum of the values of all processes with the vertex. (Violated if ghost vertices have lower indices than others.)", "quantifier": "every distribution of vertices over any number of processes, symmetric matrix patterns, overlap sizes, values, every schedule of the processes and every amount of buffering by the MPI library", "why_tests_cant": "The processes extend the overlap level by level with messages between neighbours; whether that is complete depends on chains of processes of any length and on the schedule.", "anchors": ["opm/simulators/linalg/foreignoverlapfrombcrsmatrix.hh: ForeignOverlapFromBCRSMatrix, extendForeignOverlap_, addNonNeighborOverlapIndices_, computeMasterRanks_", "opm/simulators/linalg/domesticoverlapfrombcrsmatrix.hh: buildDomesticOverlap_, updateMasterRanks_", "opm/simulators/linalg/vertexborderlistfromgrid.hh: VertexBorderListFromGrid"]}
{"id": "C143", "title": "The linear solver's matrix always fits the grid and the auxiliary equations", "statement": "Whatever happens in the course of a run, Newton iterations which fail at any place, changes of the grid, and auxiliary modules which are added, cleared and added anew, the matrix of the linearizer and the matrix and vectors of the linear solver fit the present grid and modules whenever a system is solved; they are not rebuilt as long as nothing changes; no call does anything undefined; and every preconditioner is destroyed exactly once.", "quantifier": "all histories of Newton iterations, each ending at any place, changes of the grid, and additions and removals of auxiliary modules", "why_tests_cant": "Histories and the places at which exceptions leave an iteration are unbounded in number; matrices are kept across iterations and time steps.", "anchors": ["opm/simulators/linalg/parallelbasebackend.hh: prepare, eraseMatrix, setResidual, getResidual, setMatrix, solve, cleanup_", "opm/simulators/linalg/istlpreconditionerwrappers.hh: prepare, cleanup", "opm/models/discretization/common/fvbasediscretization.hh: addAuxiliaryModule, clearAuxiliaryModules", "opm/models/discretization/common/fvbasediscretizationfemadapt.hh: adaptGrid", "opm/models/discretization/common/fvbaselinearizer.hh: linearizeDomain, eraseMatrix"]}
{"id": "C144", "title": "The sparse matrix interface is a matrix", "statement": "After a pattern is reserved and the matrix cleared, every block of the pattern is the sum of the blocks added there, in whatever order; blocks which are set read as they were set; clearing a row leaves the given multiple of the identity on the diagonal, zeros elsewhere in the row, and other rows as they are. Blocks outside of the pattern cannot be accessed.", "quantifier": "all sizes, patterns, blocks and sequences of operations", "why_tests_cant": "patterns and sequences of additions are unbounded", "anchors": ["opm/simulators/linalg/istlsparsematrixadapter.hh: IstlSparseMatrixAdapter"]}
{"id": "C145", "title": "The parameters of the black-oil models decide which fields are visualised", "statement": "A field of the black-oil model or of its energy, polymer, solvent or MICP extension is in the visualisation files exactly if the extension is part of the model and the parameter which is documented to include it is set; no two fields have the same name; every field has one value per degree of freedom, the one of the present state, whatever earlier files contained; saturation ratios are between zero and one, and one exactly at saturation.", "quantifier": "all settings of the parameters, extensions and active phases, numbers of degrees of freedom, orders of visiting them, states and earlier contents of the buffers", "why_tests_cant": "There are two to the thirty-one settings of the parameters, and states and orders are unbounded.", "anchors": ["opm/models/io/vtkblackoilmodule.hh: VtkBlackOilModule", "opm/models/io/vtkblackoilenergymodule.hh: VtkBlackOilEnergyModule", "opm/models/io/vtkblackoilpolymermodule.hh: VtkBlackOilPolymerModule", "opm/models/io/vtkblackoilsolventmodule.hh: VtkBlackOilSolventModule", "opm/models/io/vtkblackoilmicpmodule.hh: VtkBlackOilMICPModule"]}
{"id": "C146", "title": "Grids with fractures survive the conversion from ART to DGF", "statement": "For every ART file with a proper grid, with any comments, empty lines and white space, the converter succeeds; the result has the same vertices in the same order and the same triangles, in mathematically positive direction; and when the result is read, with or without refining the grid, exactly the edges which were fractures are fractures.", "quantifier": "all grids with fractures, all texts of an ART file with the grid, all numberings of the vertices by the grid", "why_tests_cant": "Grids and texts are unbounded in size; the order and direction of edges is arbitrary.", "anchors": ["art2dgf/art2dgf.cc: Art2DGF::convert", "opm/models/io/dgfvanguard.hh: DgfVanguard, addFractures_", "opm/models/discretefracture/fracturemapper.hh: FractureMapper"]}
{"id": "C147", "title": "Amounts within one phase are parts of the total", "statement": "The amount of each conserved quantity within one fluid phase, as the model reports it for the whole domain, is the sum over the sub-control volumes of the domain of what the phase holds there; for every conserved quantity the amounts within all phases add up to the total amount in the domain apart from the energy of the solid, whatever the distribution of the elements to processes and threads.", "quantifier": "all grids and discretisations, distributions to processes, numbers of phases and components, storage terms of the immiscible, mole based and mass based models, with and without energy, all intensive quantities", "why_tests_cant": "the tests print the amounts without comparing them with anything, and with one cell or with vertex-centred grids the numbers are right", "anchors": ["opm/models/common/multiphasebasemodel.hh: MultiPhaseBaseModel::globalPhaseStorage", "opm/models/discretization/common/fvbasediscretization.hh: FvBaseDiscretization::globalStorage", "opm/models/immiscible/immisciblelocalresidual.hh: addPhaseStorage, computeStorage", "opm/models/pvs/pvslocalresidual.hh: addPhaseStorage"]}
{"id": "C148", "title": "The linear solver's result does not depend on how the cells are distributed", "statement": "All processes together solve the linear system as one process which has the whole grid would: the solver breaks down in the same iteration or reports the same verdict after the same number of iterations, and each process gets, for its own cells, the values which the one process would have computed, in exact arithmetic. This holds for every partition of the cells, every size of the algebraic overlap from one on, every schedule of the processes and every amount of buffering of the MPI library.", "quantifier": "all partitions of grids distributed by cells, all sparse matrices and right hand sides, all overlap sizes, all schedules and buffering, all parameters of the solver, all numbers of iterations", "why_tests_cant": "A test runs one partition with one matrix on one machine, and compares results up to a tolerance which hides entries that are counted twice or are stale; it cannot run all partitions and schedules.", "anchors": ["opm/simulators/linalg/parallelbasebackend.hh: setResidual, solve", "opm/simulators/linalg/parallelbicgstabbackend.hh: prepareSolver_, runSolver_", "opm/simulators/linalg/overlappingpreconditioner.hh: OverlappingPreconditioner::pre, apply, post", "opm/simulators/linalg/bicgstabsolver.hh: BiCGStabSolver::apply", "opm/simulators/linalg/istlpreconditionerwrappers.hh: PreconditionerWrapperJacobi", "opm/simulators/linalg/linalgparameters.hh: PreconditionerOrder"]}
{"id": "C149", "title": "The simulator is set up on all processes or on none, and all of them say why not", "statement": "When several processes construct a simulator, the constructors return on all of them if no process gets an exception in any of the six steps (allocating and distributing the vanguard, allocating model and problem, initialising model and problem). Otherwise all of them throw an exception with the same text, which names the first step that failed and gives the message of the failing process of the lowest rank; no process waits forever.", "quantifier": "all numbers of processes, all combinations of steps, processes and exceptions which are thrown, all texts of exceptions, with and without assertions", "why_tests_cant": "Tests set up simulators successfully, or fail on all processes in the same way; combinations of failures on several processes, and failures in the middle of collective operations, are not produced by tests.", "anchors": ["opm/models/utils/simulator.hh: Simulator::Simulator", "opm/models/parallel/mpiutil.hh: gatherStrings"]}
{"id": "C150", "title": "Volumes and the bounding box are those of the whole grid", "statement": "After the model has been initialised, the volume of a degree of freedom is, on every process which has it, the sum of the volumes of all parts of its control volume in all cells of the whole grid, and the volume of the grid is that of all cells, each counted once, however the grid is spread over processes and in whatever order messages arrive. A degree of freedom is local on exactly those processes which have an interior cell with a part of its control volume. The bounding box of the problem is, on all processes, the smallest box which contains all vertices.", "quantifier": "all grids, all ways to spread them over processes with any overlap, all orders of messages, all positions of vertices", "why_tests_cant": "Tests run on one or a few processes on structured grids; the sum must be right for all partitions and overlaps and for all orders of messages.", "anchors": ["opm/models/discretization/common/fvbasediscretization.hh: FvBaseDiscretization::finishInit, dofTotalVolume, isLocalDof, gridTotalVolume", "opm/models/discretization/common/fvbaseproblem.hh: FvBaseProblem::FvBaseProblem, boundingBoxMin, boundingBoxMax"]}
{"id": "C151", "title": "Default time steps keep to the limits and leave no tiny step at the end of an episode", "statement": "With the default choice of the next time step, no step of a run is larger than MaxTimeStepSize, or smaller than MinTimeStepSize unless less is left, however often the Newton method fails; a step which does not reach the end of the episode or of the simulation leaves enough for another step of about the same size. A size imposed by setNextTimeStepSize is used instead.", "quantifier": "all runs of the time loop, all lengths of episodes, all numbers of iterations and failures of the Newton method, all values of the parameters", "why_tests_cant": "The choice depends on what is left of the episode, on the number of iterations and on the parameters; the cases in which the limits are exceeded occur only for narrow ranges of what is left, which tests do not hit.", "anchors": ["opm/models/discretization/common/fvbaseproblem.hh: FvBaseProblem::nextTimeStepSize, setNextTimeStepSize, timeIntegration", "opm/models/nonlinear/newtonmethod.hh: NewtonMethod::suggestTimeStepSize", "opm/models/utils/simulator.hh: Simulator::maxTimeStepSize, run"]}
{"id": "C152", "title": "Weights of primary variables and equations are positive", "statement": "The weights by which models scale primary variables and equations are defined and positive for every degree of freedom, so that steps of finite differences are positive and an error is only zero if all equations hold; the weights of a degree of freedom do not depend on the number of threads.", "quantifier": "all pressures, temperatures, activity coefficients, numbers of phases and components, with and without energy; all orders of accesses of two threads", "why_tests_cant": "weights are computed from the current solution in every iteration; tests only run with pressures far from zero and with one thread", "anchors": ["opm/models/immiscible/immisciblemodel.hh: primaryVarWeight, updateBegin", "opm/models/ncp/ncpmodel.hh: updatePVWeights", "opm/models/blackoil/blackoilmodel.hh: primaryVarWeight", "opm/models/richards/richardsmodel.hh: primaryVarWeight", "opm/models/discretization/common/fvbasefdlocallinearizer.hh: numericEpsilon"]}
{"id": "C153", "title": "The initial solution and the residual do not depend on the distribution of the grid", "statement": "After the initial solution has been applied every process has, for every degree of freedom it knows, the values which the problem prescribes; the residual of the whole domain and its norm are those of a run with a single process, and the norm is zero only if all equations hold.", "quantifier": "all grids, distributions over processes with any copies, orders of elements and messages, initial conditions and local residuals", "why_tests_cant": "errors only show at copies and borders of processes; tests run on one process or look at a few cells", "anchors": ["opm/models/discretization/common/fvbasediscretization.hh: applyInitialSolution, globalResidual, syncOverlap", "opm/models/discretization/ecfv/ecfvdiscretization.hh: syncOverlap"]}
{"id": "C154", "title": "Reported flows are those of the residual", "statement": "The flows which the TPFA linearizer reports for the faces of a cell are the fluxes of the current solution: whatever the order in which threads write, and however often they were updated, they add up, with the change of what is stored and the sources, to the residual of the cell; the flow reported from one cell to another is the opposite of the one reported for the other direction; entries of non-neighbouring connections refer to the connection of the two cells. The velocity which dispersion uses is the greatest one over the faces of the cell.", "quantifier": "all grids, connections, boundary conditions, fluxes, numbers of updates and orders of writes of the threads", "why_tests_cant": "Flows are compared with reference output for a few decks only; the order of writes differs from run to run and the sums would have to be checked for every cell and every history of boundary conditions.", "anchors": ["opm/models/discretization/common/tpfalinearizer.hh: createFlows_, updateFlowsInfo", "opm/models/blackoil/blackoildispersionmodule.hh: BlackOilDispersionIntensiveQuantities::update"]}
{"id": "C155", "title": "Effective properties of mixtures of oil, gas and solvent", "statement": "With the solvent extension, effective densities and viscosities (and with them mobilities) of oil, gas and solvent lie between the smallest and the largest value of the pure fluids that are present; nothing changes where there is no solvent, where the fluids are not miscible or where the mixing parameters are zero; with complete mixing the density is the mean weighted by mobile saturations and the viscosity obeys the quarter power rule.", "quantifier": "all saturations, critical saturations, viscosities, densities, formation volume factors, miscibilities and mixing parameters", "why_tests_cant": "The formulas divide by differences of fourth roots and switch between branches at a cut-off; tests look at a few states of one data set and cannot bound the result for all of them.", "anchors": ["opm/models/blackoil/blackoilsolventmodules.hh: effectiveProperties"]}
{"id": "C156", "title": "Set-up of extensions of the black-oil model from a deck", "statement": "A program with the foam, brine, solvent or polymer extension accepts a deck only if it has the keyword of the extension and vice versa; the set-up does not read or write beyond the end of a vector; afterwards every look-up for a region gives the table of the deck for this region, or the documented default; multipliers of PLYSHLOG come back at their reference concentration; and the outcome depends only on the deck and not on decks which the same program has read before.", "quantifier": "all decks: numbers of regions and tables, missing keywords, records and defaults, with and without assertions, and all parameters left behind by earlier set-ups", "why_tests_cant": "Unit tests run a handful of complete decks in debug builds; decks with missing or superfluous tables, release builds and several simulations in one process are not among them.", "anchors": ["opm/models/blackoil/blackoilfoammodules.hh: initFromState", "opm/models/blackoil/blackoilbrinemodules.hh: initFromState", "opm/models/blackoil/blackoilsolventmodules.hh: initFromState", "opm/models/blackoil/blackoilpolymermodules.hh: initFromState, getPlymwinjTable, computeShearFactor"]}
{"id": "C157", "title": "Extended black-oil model: tables of PVTSOL and their use", "statement": "The set-up of the extended black-oil model accepts a deck exactly if there is a density for each region; the tables hold, for every fraction of solvent, the rows up to the bubble or dew point in strictly ascending order, and compressibilities (finite, negative for oil) are the slopes beyond it; this does not depend on decks read before. In a cell, the densities of oil and gas equal the mass of the components in them, and nothing jumps where the last gas or the last oil disappears.", "quantifier": "all decks with any number of regions, fractions of solvent and rows; all pressures, fractions, dissolution factors and table functions; with and without assertions", "why_tests_cant": "There is no unit test for this extension; the cases which matter (rows which do not increase, equal dissolution factors, states exactly at the bubble point, a second deck) would have to be met exactly.", "anchors": ["opm/models/blackoil/blackoilextbomodules.hh: initFromState, zFractionUpdate_, zPvtUpdate_", "opm/models/blackoil/blackoilintensivequantities.hh: update"]}
{"id": "C158", "title": "What is packed by one process can be unpacked by another", "statement": "Packing a simulator, a model, a solution or primary variables into a buffer (`serializeOp`) and unpacking it into another object of the same type gives an object which compares equal to the packed one and behaves like it, whatever the other object held before, and leaves what follows in the buffer; objects compare equal exactly if everything they say agrees.", "quantifier": "all simulators, models, solutions of any sizes and primary variables, all objects they are unpacked into, all contents of the rest of the buffer", "why_tests_cant": "Tests pack and unpack one test object per class into a default constructed one; sizes, previous contents and caches of a running model are not covered.", "anchors": ["opm/models/utils/simulator.hh: Simulator::serializeOp", "opm/models/discretization/common/fvbasediscretization.hh: FvBaseDiscretization::serializeOp, BlockVectorWrapper, operator==", "opm/models/blackoil/blackoilprimaryvariables.hh: serializeOp, operator=="]}
{"id": "C159", "title": "What is printed about parameters reproduces the run, unused ones are always shown, and the help lists every parameter", "statement": "The list of parameter values a program prints at its start is itself a parameter file: a second run which is given nothing but this file gets the same value for every parameter. Parameters which were given but which nobody knows are shown at every start, whatever PrintParameters says and whether the output is a terminal or not. The help message has one entry for each parameter which is not hidden (for every one with --help-all), and each entry shows option, kind of argument, description and default value, for every width of the terminal.", "quantifier": "all sets of registered parameters and all values given at run time, all settings of PrintParameters, all widths of terminals, all descriptions", "why_tests_cant": "Tests compare help messages and printed values for one set of parameters; they cannot range over values, names and terminal widths.", "anchors": ["opm/models/utils/parametersystem.hh: Opm::Parameters::printValues, printUnused, printUsage, printParamUsage_, printParamList_, getTtyWidth_, parseParameterFile", "opm/models/utils/start.hh: start"]}
{"id": "C160", "title": "A whole simulation conserves what it says it conserves, up to the Newton tolerance", "statement": "At any point of any simulation, whatever episodes, callbacks, retries and choices of time step sizes there were, the amount of each conserved quantity in the domain equals the initial amount plus what sources and boundary supplied during the completed time steps, up to an error which is at most the sum over these steps of the step size times the tolerance of the Newton method divided by the weight of the equation, summed over the cells. Failed attempts contribute nothing.", "quantifier": "all grids with matching connections, all storage, flux, source and boundary terms, all nonlinear iterations and linear solvers, all callbacks of the problem, all numbers of steps", "why_tests_cant": "Tests run a few simulations for a few steps and compare with a reference file; the bound has to hold for all histories of failures, retries and step sizes.", "anchors": ["opm/models/utils/simulator.hh: Simulator::run", "opm/models/discretization/common/fvbaseproblem.hh: FvBaseProblem::timeIntegration, advanceTimeLevel", "opm/models/discretization/common/fvbasediscretization.hh: FvBaseDiscretization::update, advanceTimeLevel", "opm/models/nonlinear/newtonmethod.hh: NewtonMethod::apply", "opm/models/discretization/common/tpfalinearizer.hh: TpfaLinearizer::linearizeDomain"]}
{"id": "C161", "title": "The Newton method on several processes does what it does on one", "statement": "If the cells of a grid are distributed over several processes, the Newton method on all of them together does what it does on one process which has the whole grid: all processes report the same success or failure, after the same number of iterations and with the same error; no process waits for ever for another; each process has the values of the one process for its own cells. So two distributions of the same grid give the same results. After a success, all processes have the same values for the same cell, also for copies, and the prescribed ones for cells with constraints.", "quantifier": "all equations with any number of unknowns per cell (with exceptions in any evaluation), all constraints, all distributions of the grid and overlap sizes, all schedules of messages, all settings, all starting values", "why_tests_cant": "tests run a few distributions on a few grids with the schedules which happen; they cannot enumerate distributions and schedules", "anchors": ["opm/models/nonlinear/newtonmethod.hh: NewtonMethod::apply", "opm/models/discretization/common/fvbasenewtonmethod.hh: FvBaseNewtonMethod::beginIteration_, update_", "opm/models/discretization/ecfv/ecfvdiscretization.hh: EcfvDiscretization::syncOverlap", "opm/simulators/linalg/parallelbasebackend.hh: ParallelBaseBackend::prepare, setResidual, setMatrix, solve"]}
{"id": "C162", "title": "A simulation on several processes is the simulation on one process", "statement": "A simulation which is run on several processes takes the same course as the one which is run on a single process with the whole grid: after every step of the time loop all processes have the same time, time step size and episode, have called the same callbacks of the problem and chopped the same time steps as the single process, and have the same values of the unknowns for the cells which they own, on both time levels.  No process ever waits for others in vain.  Hence results do not depend on how many processes are used or how the grid is distributed among them.", "quantifier": "all numbers of processes and distributions of cells, all equations which are local (finite volumes with the implicit Euler method), all initial values incl. those of copies of cells, all callbacks of the problem which use values of own cells, all failures of time steps, all schedules of messages, all numbers of time steps", "why_tests_cant": "A test runs few simulations on few processes with few schedules, and compares results up to tolerances; the claim is about all distributions and interleavings over whole simulations.", "anchors": ["opm/models/utils/simulator.hh: Simulator::run", "opm/models/discretization/common/fvbaseproblem.hh: timeIntegration, advanceTimeLevel", "opm/models/discretization/common/fvbasediscretization.hh: update, updateFailed, advanceTimeLevel", "opm/models/nonlinear/newtonmethod.hh: apply", "opm/simulators/linalg/parallelbasebackend.hh: solve"]}
{"id": "C163", "title": "Output for analysing the convergence of the Newton method shows its updates", "statement": "If convergence is written, then for each iteration the field 'relative error' is the largest weighted change of the primary variables of each degree of freedom and zero exactly where nothing changes, 'normalized relative error' is scaled to the interval from zero to one, keeps the order of the errors and reaches one, the other fields are the primary variables, their weights, their changes and the residuals, and data of later iterations have later times.", "quantifier": "all solutions, updates, weights and residuals, all numbers of degrees of freedom and equations, all histories of calls of the Newton method with any numbers of iterations", "why_tests_cant": "Tests look at few files; the scaling has to be right for all values incl. zero and huge errors, and the order of times for all histories.", "anchors": ["opm/models/discretization/common/fvbasediscretization.hh: relativeDofError, addConvergenceVtkFields", "opm/models/discretization/common/fvbasenewtonconvergencewriter.hh: FvBaseNewtonConvergenceWriter", "opm/models/nonlinear/newtonmethod.hh: writeConvergence_, begin_, end_"]}
{"id": "C164", "title": "The number of threads, their schedule and the linearizer do not change a simulation", "statement": "Two simulations of the same task with the same settings, one of which assembles its linear systems with some number of threads and the other with another number, another schedule of the threads in each linearization or with the other of the two linearizers for cell-centred grids, go through the same times, step sizes, failures and solutions; so with any of them mass is balanced as it is with one thread.", "quantifier": "all equations with two-point fluxes, all linear solvers, callbacks, settings and initial solutions, all interleavings of loads and stores of any number of threads in each linearization, each choice of the linearizer, all numbers of time steps", "why_tests_cant": "A data race shows up in few of very many schedules; a test sees some of them, on one machine, and cannot compare all pairs over whole simulations.", "anchors": ["opm/models/discretization/common/tpfalinearizer.hh: linearize_", "opm/models/discretization/common/fvbaselinearizer.hh: linearize_, linearizeElement_", "opm/models/nonlinear/newtonmethod.hh: apply", "opm/models/utils/simulator.hh: Simulator::run"]}
{"id": "C165", "title": "Bounded unknowns stay within their bounds during whole simulations", "statement": "If the initial values of the unknowns are physically meaningful, then they are so in both time levels at every point of every simulation, whatever updates the linear solver asks for and however often time steps are repeated. Black oil (with projection of saturations): the meanings of the variables fit the phases, saturations are not negative and sum up to one, dissolution and vaporization factors are not negative, the variables of extensions are within their bounds. Flash: pressures are positive and stored mole fractions between 1e-8 and one minus 1e-8. NCP: pressures are positive and fugacities not negative. So no update of the simulation has undefined behaviour.", "quantifier": "all grids, fluxes, sources, boundary conditions, callbacks of the problem, linear solvers, fluid properties, flags whether variables were switched, failures of time steps and numbers of steps", "why_tests_cant": "Tests run few simulations in which extreme updates are rare; the bounds have to hold for every update in every history.", "anchors": ["opm/models/blackoil/blackoilnewtonmethod.hh: updatePrimaryVariables_", "opm/models/ptflash/flashnewtonmethod.hh: updatePrimaryVariables_", "opm/models/ncp/ncpnewtonmethod.hh: updatePrimaryVariables_", "opm/models/nonlinear/newtonmethod.hh: apply, update_", "opm/models/discretization/common/fvbasediscretization.hh: update, updateFailed, advanceTimeLevel", "opm/models/utils/simulator.hh: Simulator::run"]}
{"id": "C166", "title": "A restarted simulation computes the solutions of the uninterrupted one", "statement": "Whenever a simulation writes a restart file, a new process with the same grid, problem and parameters which is started with this file computes the same solutions at the same times, shows the same events and ends in the same way as the first process would have done without interruption. The solution and the clock which the new process reads are exactly those which were written.", "quantifier": "all grids, fluxes, sources, boundary conditions, callbacks of the problem, Newton methods, initial solutions, numbers of steps before the file is written and after it was read", "why_tests_cant": "Tests compare few restarts of few problems at selected times; equality has to hold for each point at which a file is written and all later times.", "anchors": ["opm/models/utils/simulator.hh: Simulator::run, serialize, deserialize", "opm/models/io/restart.hh: Restart", "opm/models/discretization/common/fvbasediscretization.hh: serializeEntity, deserializeEntity", "opm/models/discretization/ecfv/ecfvdiscretization.hh: serialize, deserialize"]}
{"id": "C167", "title": "Free-flow boundaries treat fluids like faces between cells", "statement": "At a boundary where a fluid state is prescribed, each phase flows as it would flow to a cell which contains the prescribed fluid at the position of the boundary face: not at all if the pressures differ by the weight of the fluid column, otherwise down the potential with the mobility of the side it comes from. It carries the components and the substances dissolved in it (solvent, polymer, salt, foam, microbes, oxygen, urea) of the side it comes from.", "quantifier": "all prescribed fluid states, cells, transmissibilities, gravity, positions of faces, contents of cells and fluxes; transmissibility based fluxes and all additional black-oil modules", "why_tests_cant": "Test problems have closed boundaries or boundaries with the fluid of the domain, at which the content of the wrong side makes no difference.", "anchors": ["opm/models/common/transfluxmodule.hh: TransExtensiveQuantities::calculateBoundaryGradients_", "opm/models/blackoil/blackoilboundaryratevector.hh: BlackOilBoundaryRateVector::setFreeFlow", "opm/models/blackoil/blackoilbrinemodules.hh: BlackOilBrineModule::computeFlux"]}
{"id": "C168", "title": "A simulation which begins in equilibrium stays there", "statement": "If in the initial state nothing flows, in particular if all fluids are at rest in the field of gravity, then the solution never changes during the whole simulation, whatever time step sizes, episodes, callbacks, failures and retries there are; every time step succeeds at its first attempt, after a single Newton iteration, and with the size it was planned with. The linear solver answers systems without right-hand side with zero.", "quantifier": "all grids, phases, components, fluid properties, openings of the boundary with fluids at rest, callbacks, time step sizes and numbers of steps; all operators and preconditioners", "why_tests_cant": "Tests run a few steps of problems in which something happens; that nothing ever happens in equilibrium is a statement about all steps of all such problems.", "anchors": ["opm/models/utils/simulator.hh: Simulator::run", "opm/models/discretization/common/fvbaseproblem.hh: FvBaseProblem::timeIntegration", "opm/models/nonlinear/newtonmethod.hh: NewtonMethod::apply", "opm/models/common/transfluxmodule.hh: TransExtensiveQuantities::calculateGradients_", "opm/models/discretization/common/tpfalinearizer.hh: TpfaLinearizer::linearize_", "opm/simulators/linalg/bicgstabsolver.hh: BiCGStabSolver::apply"]}
{"id": "C169", "title": "The total amount is balanced on several processes", "statement": "In a simulation on several processes, the amount of a conserved quantity, added up over the cells owned by each process and then over all processes, changes during the simulation by what sources and the boundary supplied in the successful time steps, up to the sum over the steps of step size times the tolerance of the Newton method divided by the weights of the equations. The amount is that which the same simulation on one process has, however the grid is distributed.", "quantifier": "all grids and their distributions with overlap, all equations which are balances of a quantity, all linear solvers, parameters of the Newton method and the time loop, all numbers of steps and all patterns of failed and repeated steps", "why_tests_cant": "tests run a few simulations on a few processes and compare output files; they cannot show that no distribution counts cells twice or drops a flux across the border between processes, nor that errors of the nonlinear solver do not add up to more than the tolerance allows", "anchors": ["opm/models/discretization/common/fvbasediscretization.hh: globalStorage", "opm/models/nonlinear/newtonmethod.hh: NewtonMethod::apply", "opm/models/utils/simulator.hh: Simulator::run", "opm/models/discretization/common/fvbaselinearizer.hh: FvBaseLinearizer::linearize_"]}
{"id": "C170", "title": "Cells of the PT-flash model store the mixture which the primary variables describe", "statement": "The amounts of the components stored in a cell of the model based on PT-flash calculations are in proportion to the mole fractions of its primary variables; their total obeys the equation of state for the pore volume at the pressure of the primary variables; the liquid is that part which the flash solver has found; what flows over a face are the components in the volumes of liquid and vapour which flow. Making primary variables of the resulting fluid state gives back the primary variables. None of this depends on the values the flash solver starts with.", "quantifier": "all numbers of components, primary variables with positive pressure, temperatures, porosities, hints, flash solvers which divide mixtures and equations of state with positive molar volumes", "why_tests_cant": "tests compare a few simulations with reference output; whether saturations, densities and mole fractions fit together for every composition, including single-phase ones, cannot be settled by samples", "anchors": ["opm/models/ptflash/flashintensivequantities.hh: FlashIntensiveQuantities::update", "opm/models/ptflash/flashlocalresidual.hh: addPhaseStorage, computeStorage, addAdvectiveFlux", "opm/models/ptflash/flashprimaryvariables.hh: assignNaive"]}
{"id": "C171", "title": "Thermodynamic hints do not change results", "statement": "The quantities of cells which an element context hands out after it has visited an element are those which are computed from the primary variables of the cells without hints, whatever elements the context has visited before; hints which are given belong to the cell for which they are given; and hints are given if they are switched on and quantities are available.", "quantifier": "all models which use hints, settings of hints and caches, sequences of visits of elements by a context, time levels, solutions and coherent contents of the cache", "why_tests_cant": "which hint is used depends on the order of visits of elements, i.e. on the grid, the number of threads and the state of the cache; tests run a few orders only, and differences are of the size of solver tolerances", "anchors": ["opm/models/discretization/common/fvbaseelementcontext.hh: updateIntensiveQuantities_, thermodynamicHint", "opm/models/discretization/common/fvbasediscretization.hh: thermodynamicHint, cachedIntensiveQuantities", "opm/models/ptflash/flashintensivequantities.hh: update", "opm/models/ncp/ncpintensivequantities.hh: update", "opm/models/flash/flashintensivequantities.hh: update"]}
{"id": "C172", "title": "Refreshing the cached quantities makes all of them belong to the solution", "statement": "After invalidateAndUpdateIntensiveQuantities(timeIdx) every cached entry of the grid is valid and belongs to the primary variables of that time index, whatever the cache contained before, and nothing else changes. The overload for a grid view does the same for the elements of that view and for the given time index.", "quantifier": "every state of the solutions and the cache, every time index, every grid view, elements which share degrees of freedom and every partition of the elements", "why_tests_cant": "A stale entry is only visible if the solution was changed behind the back of the cache and exactly this degree of freedom is asked for afterwards; tests always refresh the whole grid at the current time index.", "anchors": ["opm/models/discretization/common/fvbasediscretization.hh: FvBaseDiscretization::invalidateAndUpdateIntensiveQuantities", "opm/models/discretization/common/fvbasediscretization.hh: FvBaseDiscretization::setIntensiveQuantitiesCacheEntryValidity"]}
{"id": "C173", "title": "Both black-oil residuals compute the same fluxes", "statement": "It does not matter for the equations of the black-oil model whether they are assembled through element contexts or by the two-point flux linearizer: the flux of every component over every face, including diffusion, dispersion and convective mixing, is the same, and what leaves one cell enters the other. Effects which the deck does not ask for are absent. At boundaries nothing flows without conditions, only heat through thermal ones, and prescribed rates and fluids have the prescribed effect.", "quantifier": "all fluids, pressures, depths, mobilities, contents and regions on both sides of a face, all sets of active phases and solubilities, both conserved quantities, all compile-time switches and boundary types", "why_tests_cant": "the two residuals are used by different simulators and never run on the same deck; differences appear only with particular combinations of compile-time switches, deck keywords and rock compaction", "anchors": ["opm/models/blackoil/blackoillocalresidual.hh: computeFlux", "opm/models/blackoil/blackoillocalresidualtpfa.hh: calculateFluxes_, computeBoundaryFlux", "opm/models/blackoil/blackoildiffusionmodule.hh: addDiffusiveFlux, update_", "opm/models/blackoil/blackoildispersionmodule.hh: addDispersiveFlux", "opm/models/common/transfluxmodule.hh: calculateGradients_"]}
{"id": "C174", "title": "Solvent which is dissolved in water is accounted for in density, flow and phase changes", "statement": "In decks with CO2SOL or H2SOL, the density of the water in a cell and that of the free solvent are those which the conservation equations know: the stored volumes at surface conditions times their masses are the volumes in the pores times the densities. Water flows with the viscosity of water with dissolved solvent at every face. When free solvent vanishes, the water holds the same amount of solvent before and after, and when it appears, the water holds as much as it can. Other solvents do not change the water.", "quantifier": "all PVT relations of solvents and brine, all fluid states, saturations, temperatures, pressures, relative permeabilities (common or by direction), all layouts of primary variables and all values and meanings of them", "why_tests_cant": "density, mobility and the limit of solubility are computed at three different places from different arguments; tests compare a few decks with reference results, which contain the same mistakes", "anchors": ["opm/models/blackoil/blackoilsolventmodules.hh: solventPvtUpdate_", "opm/models/blackoil/blackoilsolventmodules.hh: solventPostSatFuncUpdate_", "opm/models/blackoil/blackoilsolventmodules.hh: solubilityLimit", "opm/models/blackoil/blackoilsolventmodules.hh: addStorage", "opm/models/blackoil/blackoilprimaryvariables.hh: adaptPrimaryVariables"]}
{"id": "C175", "title": "The matrices of processes which share vertices are parts of the assembled matrix", "statement": "If the degrees of freedom are vertices, which several processes may share, then after overlaps and matrices have been set up and the native matrices assigned, a process has an entry for two vertices of its overlap exactly if some process has assembled one, and its value is the sum of what all processes have assembled. Applying the overlapping operator to a vector whose copies agree gives on every process and for every vertex of its overlap the value of the product with the matrix of the whole grid. No process waits forever and setting up comes to an end. (Violated by products without an overlap: the master of a shared vertex leaves out the columns it does not know.)", "quantifier": "every distribution of vertices over any number of processes, symmetric matrix patterns, overlap sizes, all values, every schedule of the processes and amount of buffering by the MPI library", "why_tests_cant": "Numbers of processes, grids and schedules are unbounded; a missing contribution only shows for particular partitions.", "anchors": ["opm/simulators/linalg/overlappingbcrsmatrix.hh: OverlappingBCRSMatrix, buildIndices_, assignFromNative, syncAdd", "opm/simulators/linalg/overlappingoperator.hh: OverlappingOperator", "opm/simulators/linalg/parallelbasebackend.hh: setMatrix"]}
{"id": "C176", "title": "Matrices assigned by copying have the entries of the masters", "statement": "After assignCopy, the entries of a row are on all processes which have the row those of its master, as documented. No process waits forever. (Violated if several processes have rows of their own for a shared vertex: each process, the master as well, overwrites its entries with those of its peers.)", "quantifier": "every distribution of a grid over any number of processes, positive overlap size, all matrices, every schedule of the processes and amount of buffering by the MPI library", "why_tests_cant": "Numbers of processes, matrices and schedules are unbounded.", "anchors": ["opm/simulators/linalg/overlappingbcrsmatrix.hh: OverlappingBCRSMatrix::assignCopy, syncCopy, receiveCopyEntries_"]}
{"id": "C177", "title": "The linear solver's result does not depend on which processes share vertices", "statement": "For discretizations whose degrees of freedom are vertices, all processes together solve the linear system as one process which has the whole grid would: the matrix and the right hand side of the one process are the sums of what the processes have assembled, and the solver breaks down in the same iteration or reports the same verdict after the same number of iterations, and each process gets the values of the one process for all its vertices, shared or not, in exact arithmetic. This holds for every partition, every size of the algebraic overlap from one on, every schedule of the processes and every amount of buffering of the MPI library, if the Jacobi preconditioner does at most as many sweeps as the overlap has layers.", "quantifier": "all grids and all distributions of their elements, any number of processes sharing a vertex, all sparse matrices with symmetric patterns and right hand sides, all overlap sizes, all schedules and buffering, all parameters of the solver, all numbers of iterations", "why_tests_cant": "A test runs one partition with one matrix; a vertex whose residual or row is counted once per process, or whose scalar product is, changes iterations only slightly and is hidden by tolerances.", "anchors": ["opm/simulators/linalg/parallelbasebackend.hh: setResidual, solve", "opm/simulators/linalg/parallelbicgstabbackend.hh: prepareSolver_, runSolver_", "opm/simulators/linalg/overlappingblockvector.hh: assignAddBorder, sync", "opm/simulators/linalg/overlappingscalarproduct.hh: OverlappingScalarProduct::dot", "opm/simulators/linalg/overlappingpreconditioner.hh: OverlappingPreconditioner::apply", "opm/simulators/linalg/vertexborderlistfromgrid.hh: VertexBorderListFromGrid"]}
{"id": "C178", "title": "Scaling the pressure variable does not change a simulation", "statement": "The black-oil model can store pressures divided by a constant (parameter PressureScale). Reading fluid states from primary variables, storing them, deciding which meaning the variables have, the residuals, and the states after every Newton iteration are the same as without scaling, apart from the number which is stored for the pressure.", "quantifier": "every positive scale, every combination of active phases and extensions with distinct variables, every fluid system, state, system of equations, exact solution of the linear systems, limits of changes and number of iterations", "why_tests_cant": "Tests run with the default scale one; a place which forgets (or repeats) the scale is only noticed with another scale and in the situation where that place matters.", "anchors": ["opm/models/blackoil/blackoilprimaryvariables.hh: BlackOilPrimaryVariables::makeEvaluation, pressure_, setScaledPressure_, adaptPrimaryVariables, assignNaive", "opm/models/blackoil/blackoilnewtonmethod.hh: BlackOilNewtonMethod::updatePrimaryVariables_", "opm/models/blackoil/blackoilintensivequantities.hh: BlackOilIntensiveQuantities::update"]}
{"id": "C179", "title": "The linear solver's result does not depend on how cells with several equations are distributed", "statement": "For models with several equations per cell, whose vectors and matrices consist of blocks, all processes together solve the linear system as one process which has the whole grid would: the solver breaks down in the same iteration or reports the same verdict after the same number of iterations, and each process gets, for its own cells, the blocks which the one process would have computed, in exact arithmetic. Blocks are exchanged as a whole, the scalar product and the convergence criterion take every entry of every block into account exactly once, and the preconditioner solves the diagonal block of each row. This holds for every number of equations, every partition of the cells, every size of the algebraic overlap from one on, every schedule of the processes and every amount of buffering of the MPI library, as long as the overlap is wide enough for the number of sweeps.", "quantifier": "all numbers of equations per cell, all partitions of grids distributed by cells, all sparse block matrices and right hand sides, all overlap sizes, all schedules and buffering, all parameters of the solver, all numbers of iterations", "why_tests_cant": "A test runs one model with one partition; an entry of a block which is left out of an exchange, of the scalar product or of the criterion changes iterations only slightly and is hidden by tolerances.", "anchors": ["opm/simulators/linalg/parallelbasebackend.hh: setResidual, solve", "opm/simulators/linalg/overlappingblockvector.hh: sync, assignAddBorder", "opm/simulators/linalg/overlappingscalarproduct.hh: OverlappingScalarProduct::dot", "opm/simulators/linalg/combinedcriterion.hh: CombinedCriterion::updateErrors_", "opm/simulators/linalg/istlpreconditionerwrappers.hh: PreconditionerWrapperJacobi", "opm/simulators/linalg/matrixblock.hh: MatrixBlock"]}
{"id": "C180", "title": "Velocities and gradients in visualisation files do not depend on how the work is divided", "statement": "The velocity and the potential gradient which are written for a degree of freedom are averages over its faces.  They do not depend on the order in which elements are visited, on the number of threads and how their steps are interleaved, or on how the cells are distributed over processes.  Velocities in fractures are averages over the faces with fractures, and zero where there are none.", "quantifier": "all sets of faces with all fluxes and velocities, all orders of elements, all interleavings of all numbers of threads, all distributions of cells over processes", "why_tests_cant": "orders, interleavings and distributions cannot be enumerated, and lost updates show up by chance", "anchors": ["opm/models/io/vtkmultiphasemodule.hh: processElement, commitBuffers", "opm/models/io/vtkdiscretefracturemodule.hh: processElement, commitBuffers", "opm/models/discretization/common/fvbasediscretization.hh: prepareOutputFields"]}
{"id": "C181", "title": "A simulation on several processes which begins in equilibrium stays there", "statement": "If the initial solution satisfies the equations of all cells, then in a simulation on several processes, with the parallel linear solver (BiCGStab on overlapping matrices), the parallel Newton method and the time loop, all processes keep the values of all their own cells on both time levels, whatever the distribution of the cells, the schedules of messages, the callbacks of the problem and failures of steps are. If nothing fails, each time integration succeeds at the first attempt with the time step size which was asked for. It is assumed that updates by zero do not change primary variables and that the linear solver accepts a residual of zero.", "quantifier": "all grids, distributions of cells on any number of processes, numbers of equations per cell, schedules of messages, equations whose residual vanishes at the initial solution, callbacks which use own cells only, numbers of steps of the time loop", "why_tests_cant": "Tests of equilibria run on one or few processes; the claim is about all distributions, all schedules and any number of time steps, and involves the sums over processes in the linear solver and the criterion of the Newton method.", "anchors": ["opm/simulators/linalg/bicgstabsolver.hh: BiCGStabSolver::apply", "opm/models/nonlinear/newtonmethod.hh: NewtonMethod::apply", "opm/models/discretization/common/fvbaseproblem.hh: FvBaseProblem::timeIntegration", "opm/models/utils/simulator.hh: Simulator::run", "opm/simulators/linalg/parallelbasebackend.hh: ParallelBaseBackend::solve"]}
{"id": "C182", "title": "Storing intensive quantities does not change a simulation on several processes", "statement": "If intensive quantities are stored between calls of the Newton method (EnableIntensiveQuantityCache), a simulation on several processes goes through the same time steps, Newton iterations and failures, and has the same values in own cells as well as in copies, as a simulation on one process which stores nothing, whichever entries have been stored when. Proved as long as no time step succeeds in a single Newton iteration; violated otherwise: copies are behind their owners after such a step, the next iteration fetches them, but intensive quantities which were stored for the old values stay valid.", "quantifier": "all grids, distributions of cells on any number of processes, equations, schedules of messages, callbacks which use own cells only, sets of stored entries which can change from call to call, numbers of steps of the time loop", "why_tests_cant": "which entries are stored depends on output and callbacks; a stale entry needs several processes, a step with one iteration and a store at a copy before the next step", "anchors": ["opm/models/discretization/common/fvbasediscretization.hh: cachedIntensiveQuantities, updateCachedIntensiveQuantities, updateFailed", "opm/models/discretization/common/fvbasenewtonmethod.hh: update_, beginIteration_", "opm/models/discretization/ecfv/ecfvdiscretization.hh: syncOverlap", "opm/models/discretization/common/fvbaseelementcontext.hh: updateIntensiveQuantities"]}
{"id": "C183", "title": "A simulation on several processes continues from the restart files of its processes", "statement": "If a simulation on several processes writes restart files, and new processes with the same distribution of the grid read them, each process gets its own file and the new simulation goes on like the uninterrupted one: same time steps, callbacks and events, same values of all cells. Files of another number of processes, another rank or another grid are rejected.", "quantifier": "all distributions of a grid, problems, histories before the files were written, orders in which processes write, contents of the directory, numbers of steps afterwards", "why_tests_cant": "The files can be written after any history and in any order; tests restart a few simulations on one process", "anchors": ["opm/models/io/restart.hh: Restart::magicRestartCookie_, restartFileName_, serializeBegin, deserializeBegin", "opm/models/utils/simulator.hh: Simulator::run, serialize, deserialize", "opm/models/discretization/common/fvbasediscretization.hh: serializeEntity, deserializeEntity", "opm/models/nonlinear/newtonmethod.hh: NewtonMethod::proceed_"]}
{"id": "C184", "title": "A simulation does not depend on how its work is divided between processes and threads", "statement": "A simulation on several processes, each of which assembles its linear systems with any number of threads and with either of the two linearizers (TpfaLinearizer or FvBaseLinearizer), goes through the same time steps, Newton iterations and failures, and has the same values of all cells, as the simulation on one process with one thread which has the whole grid. What flows out of a cell flows into its neighbour also where the cells belong to different processes, so that the total mass changes by what sources and the boundary supply only, up to the tolerance of the Newton method.", "quantifier": "all grids, distributions of cells on any number of processes, flows and boundary conditions, numbers of threads and interleavings of their loads and stores, linearizers of each process, schedules of messages, callbacks which use own cells only, numbers of steps of the time loop", "why_tests_cant": "Schedules of threads and messages and distributions of the grid cannot be enumerated; faces where the part of a process ends are treated like boundary faces, and a mistake there only shows up for some partitions.", "anchors": ["opm/models/discretization/common/tpfalinearizer.hh: TpfaLinearizer::createMatrix_, linearize_", "opm/models/discretization/common/fvbaselinearizer.hh: FvBaseLinearizer::linearize_, linearizeElement_", "opm/models/discretization/ecfv/ecfvstencil.hh: EcfvStencil::updateTopology", "opm/models/discretization/ecfv/ecfvdiscretization.hh: EcfvDiscretization::syncOverlap, LinearizeNonLocalElements", "opm/models/nonlinear/newtonmethod.hh: NewtonMethod::apply", "opm/simulators/linalg/parallelbasebackend.hh: ParallelBaseBackend::solve", "opm/models/utils/simulator.hh: Simulator::run"]}
{"id": "C185", "title": "Simulations of reservoirs on several processes: fluxes, derivatives and balances of components and energy", "statement": "In a black-oil simulation with the two-point flux linearizer each phase flows from the cell where its pressure is higher (at the same depth) and takes along the components and the energy which it has there, and heat is conducted; what flows out of a cell flows into the other one, and the residuals do not depend on how cells are numbered. On several processes with threads a simulation is the one on a single process, and at any point of any run there is of each component, and of energy, what was there at the beginning plus what sources and the boundary supplied, up to the tolerance of the Newton method.", "quantifier": "all reservoirs (grids, transmissibilities, depths, fluids with dissolved gas and vaporized oil and water, with or without energy), solutions, numberings of the cells, distributions of cells on processes, schedules of threads and messages, linearizers, callbacks which use own cells only, numbers of steps", "why_tests_cant": "Equal pressures in cells of equal size are a special case of the upwinding which tests do not meet by accident; distributions, numberings and schedules cannot be enumerated", "anchors": ["opm/models/blackoil/blackoillocalresidualtpfa.hh: computeStorage, computeFlux, calculateFluxes_, evalPhaseFluxes_, adaptMassConservationQuantities_", "opm/models/common/transfluxmodule.hh: calculateGradients_", "opm/models/blackoil/blackoilenergymodules.hh: addStorage, addPhaseEnthalpyFluxes_, addHeatFlux, updateEnergy", "opm/models/discretization/common/tpfalinearizer.hh: createMatrix_, linearize_, setResAndJacobi"]}
{"id": "C186", "title": "The constraints of a problem are collected completely, with any number of threads", "statement": "Before the first iteration of a time step the linearizer collects the constraints of the problem. Afterwards a degree of freedom is constrained exactly if the problem wants this for some element which has it, and with the values which the problem returned; nothing is left of the constraints of earlier time steps. This holds however many threads share the work and however they are scheduled.", "quantifier": "all grids and stencils, all answers of the problem, all numbers of threads, all schedules, all previous contents of the map", "why_tests_cant": "Data races between threads depend on the schedule; a test sees a few schedules, nearly all of which look fine.", "anchors": ["opm/models/discretization/common/fvbaselinearizer.hh: updateConstraintsMap_", "opm/models/parallel/threadedentityiterator.hh: ThreadedEntityIterator"]}
{"id": "C187", "title": "Mass conservative assignment keeps the contents of cells", "statement": "If assignMassConservative stores a fluid state in the primary variables of a cell and does not fail, the cell contains the same amounts of all components as the given state, whether or not that state is in equilibrium: the contents which the model calculates from the variables are those of the state. States which are said to be in equilibrium and are, are stored without flash calculation with the same result.", "quantifier": "all fluid systems and material laws, all numbers of phases and components, all fluid states, all flash solvers which find equilibria with the given amounts", "why_tests_cant": "Initial conditions are compared with reference solutions for a few fluids; that amounts survive the flash calculation, the storing and the reading must hold for all states, also for those with absent phases.", "anchors": ["opm/models/immiscible/immiscibleprimaryvariables.hh: assignMassConservative", "opm/models/ncp/ncpprimaryvariables.hh: assignMassConservative", "opm/models/pvs/pvsprimaryvariables.hh: assignMassConservative", "opm/models/flash/flashprimaryvariables.hh: assignMassConservative", "opm/models/ptflash/flashprimaryvariables.hh: assignMassConservative", "opm/models/blackoil/blackoilprimaryvariables.hh: assignMassConservative"]}
{"id": "C188", "title": "A time step after failed attempts is the one with the last size", "statement": "A time step which succeeds after any number of failed attempts, each with a smaller size than the one before, has the same result as if the last size had been used right away, also for problems with constraints; constrained degrees of freedom end with the values which are prescribed for the end of the step which was made, and all others start from the solution of the previous time step.", "quantifier": "all problems with constraints which depend on time, all Newton methods and times at which they fail, numbers of attempts, initial and minimal time step sizes", "why_tests_cant": "whether an attempt fails depends on the whole simulation; constraints which begin between the ends of two attempts are rare, and the wrong result looks like a correct one", "anchors": ["opm/models/discretization/common/fvbaselinearizer.hh:applyConstraintsToSolution_", "opm/models/discretization/common/fvbasediscretization.hh:update", "opm/models/discretization/common/fvbasediscretization.hh:updateFailed", "opm/models/discretization/common/fvbaseproblem.hh:timeIntegration"]}
