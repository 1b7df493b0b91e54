# DESIGN — a machine-checked model of OPM/opm-models

This directory holds a formal model, in Lean 4, of the logic of OPM/opm-models (source in `/repo`) and machine-checked
proofs of the properties listed in `properties.jsonl`.

## Layout

* `lean/Verif/<Topic>/Model.lean` (and other files without `Props`, `Spec` or `Lemmas` in their name) – the model: small
  total functions, each with a comment that cites the file and lines it models and says what was simplified.
* `lean/Verif/<Topic>/Spec.lean` – where needed: the vocabulary in which properties are stated, independent of the helpers of
  the model.
* `lean/Verif/<Topic>/*Lemmas.lean` – helper lemmas.
* `lean/Verif/<Topic>/*Props.lean` – the property theorems named `C<NN>_…`, followed by `example`s which show that a concrete
  non-trivial case meets the hypotheses.  Theorems named `…_partial` prove a part of the property; theorems named
  `…_violated` prove, with a concrete witness, that the code (as modelled) does not have the property.
* `seeded/LOG.jsonl` – wrong programs on which the theorems were tried.

## Trusted base

1. Lean 4.33.0's kernel.
2. The axioms reported by `#print axioms`: at most `propext`, `Classical.choice`, `Quot.sound`; see "Axioms of each theorem".
   No axiom is added; `sorry`, `admit`, `native_decide`, `bv_decide`, `implemented_by` and the like are not used.
3. The definitions of Mathlib which appear in statements: fields, orders, finite sums, `Real`, lists, finite sets.
4. The fidelity of the model to the C++ text.  The code was read, not run.  Every definition cites its source; the table
   "Sources" shows which lines are cited.

### What the model assumes

* **Arithmetic.** `Scalar` (double) is an arbitrary linearly ordered field (or `ℚ`/`ℝ`); rounding, overflow and signed zeros
  are not modelled.  Where NaN matters (C13) the model has an explicit NaN value.  Formatting with six digits (C21, C59) is
  modelled by decimal digits.  Machine integers are `Nat`/`Int` unless a wrap-around matters.
* **Automatic differentiation** (`Evaluation`) is a derivation (C37), or not modelled where derivatives do not matter.
* **Concurrency.** Threads: interleavings of atomic steps under the mutexes of the code (sequential consistency); data races
  which the text reveals are distinct outcomes.  MPI (`Verif/Mpi`): each process is a program of sends, receives, waits and
  computations; messages between two processes arrive in order; a send may be buffered or may wait for its receiver, as the
  library likes; theorems hold for every schedule and every buffering, and say that no process waits for ever.  Collective
  operations are one step.
* **Undefined behaviour** (null pointers, indices out of range, uninitialised values) is a distinct outcome (`none`, an error
  state) where the text of the code can reach it.
* **Environment.** Grid managers, fluid systems, material laws, the C++ library, Dune's solvers and MPI are not part of the
  repository.  What they are assumed to guarantee is stated in the hypotheses of the theorems (`Valid`, `Coherent`, laws which are
  inverse to each other, …), each with a concrete case that meets them.
* **Templates and properties.** Compile-time choices are parameters of the model (`Layout`, `Options`, `Fluid`, flags), so
  that one theorem covers all of them; combinations which do not compile are not excluded.

### What is not modelled

* The VTK format itself, grid creation (`io/*vanguard.hh`), the AMG, SuperLU and ISTL backends, wrappers of
  preconditioners, pyramids and prisms.
* Performance, memory consumption, and everything which is only printed, unless a property says otherwise.

## Plan and result per property

What is modelled and how it is proved; the status and what is missing are in the next table.

| id | model | proof |
|----|-------|-------|
| C01 | registry + tree maps, `Get`, `SetDefault`, `parse…` as state transformers | refinement to a precedence function |
| C02 | registry state machine with `Option`/error outcomes | case analysis per call, induction over call lists |
| C03 | character-list model of kebab printing and of `parseKey_`/`transformKey_` | induction over the name |
| C04 | argument loop as recursion over the list | induction over the argument list, against a declarative grammar |
| C05 | character-list model of `parseQuotedValue_` | round-trip by induction |
| C06 | line parser, with the un-thrown exceptions as in the code | negation by witness; partial: well-formed lines parse to key/value |
| C07, C81 | index-based loop of `breakLines_` | loop invariant; negation by witness for texts with line breaks |
| C08 | control flow of `start`/`setupParameters_` | negation by witness; partial: exits when end time is unset |
| C09, C10 | Newton loop over an adversarial oracle (error sequence, failures) | loop invariant; termination measure via error quartering |
| C11, C16 | model/solution/cache state, `update`, `updateFailed` | case analysis over failure points; C16 negation |
| C12 | vectors as lists of values per degree of freedom, constraint map | pointwise |
| C13 | scalars extended by NaN with IEEE comparison semantics | negation by witness; partial |
| C14 | formula over an ordered field | inequalities |
| C15 | retry loop over an outcome oracle | induction over attempts |
| C17–C19, C61–C63 | `run` as a step machine over an adversarial problem | invariants by induction over steps; trace language; well-founded measure for termination |
| C20, C58, C64, C65 | token-stream model of restart files | round-trip by induction; negations by witness |
| C21 | `%g`-like formatting with 6 digits | negation by witness; partial (times that print exactly) |
| C22 | extraction loop over token stream with stream state | negation by witness (divergence), partial |
| C23–C26, C66, C67 | pool: main thread, workers, queue with reference counts, small steps | inductive invariants over all interleavings |
| C27 | shared iterator with mutex-atomic steps | inductive invariant |
| C28 | entities shared by processes, gather and scatter in any order | permutation invariance of folds |
| C29, C30 | operation-sequence machines | refinement to interval sums / counters |
| C31, C32 | solution/cache/validity state machine | coherence invariant, negations for the paths that break it |
| C33, C69 | module list with offsets | induction over additions |
| C34, C36–C39, C72, C73 | network of cells with faces, assembly as folds; threads as interleaved additions | sums over faces; formal derivative via a derivation; commutation of steps |
| C35, C68 | storage evaluation with and without caches, recycled storage | case analysis of the switches; negation by witness |
| C40, C41, C70, C71 | life cycle of the matrix and of boundary and connection data | invariants over histories; negations by witness |
| C42, C43, C74 | formulas over a field | `ring`/`field_simp` |
| C44 | element context with pointer cells | negation by witness with two degrees of freedom, partial with one |
| C45 | explicit cofactor formulas | polynomial identity |
| C46, C75, C76 | solver loop over a linear operator and a preconditioner | invariant r = b − A x; comparison with the published recurrences |
| C47 | criteria as state machines over all processes | case analysis, folds |
| C48 | numbering as a message passing program (`Verif/Mpi`) | chain of ranks; annotated programs; bijection |
| C49 | partition with masters | exchange of sums |
| C50 | rounds of messages over overlaps which fit together | annotated programs give the same result for every schedule |
| C51, C77 | collective agreement of processes which may fail anywhere | all-quantified outcome; deadlock witnesses |
| C52, C53 | limiting, switching and projecting of black-oil primary variables over an ordered field, all layouts | case analysis, inequalities |
| C54, C78–C80 | `adaptPrimaryVariables`, `assignNaive` and the intensive quantities | case analysis over meanings; negations by witness |
| C55 | index layouts as arithmetic over switches | case analysis, `omega` |
| C56 | counts of switched cells summed over processes | exact formula |
| C57 | PVS primary variables with phase presence as bits | round-trip, inequalities |
| C59, C60 | printing and parsing of default values and of the parameter list | round-trip; negation by witness |
| C82–C85, C87, C90 | Darcy and transmissibility flux modules over vectors of any dimension | algebra and inequalities; witnesses |
| C86, C88, C89 | storage, flux and rate vectors with all solubility options | case analysis over options, `ring` |
| C91, C92, C94, C95 | NCP Newton update, error and assignment for any number of phases and components | loop lemmas (`forRange`), inequalities |
| C93 | phase presence function | order arguments |
| C96–C98 | PT-flash update, compositions and assignment | loop lemmas, inequalities |
| C99, C100 | Richards update with an inverse capillary pressure law | monotonicity |
| C101 | marking loop over processes, elements and phases | folds; negations by witness |
| C102, C103 | overlap construction as one message passing program: breadth-first search, numbering, exchange of indices | composition of programs (`Settles`); search invariant against least distances (`Near`, `Dist`) |
| C104 | border list handles with buffers which are read in order | invariants; deadlock by counting sends and receives (`starved`) |
| C105 | exchange of the sparsity pattern and of values after C102 | invariants of the rounds; sums with one non-zero term |
| C106 | product with the overlapping matrix and synchronisation | bijection between columns and domestic indices |
| C107 | template instantiation as inductive relations, one constructor per specialisation | induction on derivations; positions in lexicographic order; weights for termination |
| C108 | packing, displacements and the two collective calls, over an abstract MPI packing | list lemmas; overflow by sums |
| C109 | the text as list of numbers and units over ordered fields with floor | floor inequalities; negation by witness |
| C110 | state machine of the static member and the runtime | case analysis |
| C111 | heap with allocations and buffer objects | ownership invariant over all runs without copies; negation by a run |
| C112 | alignment test, alignment of a type, allocation on 64 bit | induction on numbers; divisibility of powers |
| C113 | update loop with pointers as offsets | loop invariant |
| C114 | loop over elements with visited flags, sum over processes, agreement of C32 | loop invariant; negation by evaluation |
| C115 | writers and readers of C43 extended by the phase bits | induction on the degrees of freedom |
| C116 | coordinates of corners, edges, faces and centres as real vectors; volume formulas | polynomial identities; signs from convexity; integrals of polynomials |
| C117 | tables of edges and faces, normals, areas | polynomial identities per edge and corner |
| C118 | weights of corners, map, Jacobian; tables of corners | induction on the dimension, derivatives, integrals of polynomials |
| C119 | shape functions, element map, inverse of the Jacobian | partition of unity, linear algebra, chain rule |
| C120 | storage and flux terms of the six extensions over any field | algebra by cases of upstream directions; witnesses over ℚ |
| C121 | potential drop, threshold and upstream choice | cases, linear arithmetic |
| C122 | the whole of `effectiveProperties` over ℝ | bounds of weighted power means, convexity, sums of weights |
| C123 | both updates with arbitrary tables | cases on cut-offs, substitution |
| C124 | viscosity multipliers, adsorption, resistance over ℝ | monotonicity of real powers, bounds of weighted means |
| C125 | Newton's iteration with fuel 20 and its caller | invariant of the returned value, mean value bound; a two-cycle as witness |
| C126 | sources, clogging and Newton limits of the MICP module over ordered fields | sums of sources, sign analysis, monotone powers; witnesses |
| C127 | storage, fluxes, boundary terms, assignment and restart of the energy module | antisymmetry by cases of upstream directions, series resistance; witnesses |
| C128 | diffusive and dispersive fluxes of the phases with conversion factors | algebra per phase, sums; witnesses with two regions |
| C129 | flux, averaged density, parameters per region | normal form of the flux, signs, list invariants; witnesses |
| C130 | mobilities with and without directions, corrections, densities, porosity | algebra, reuse of C88, monotonicity of the expansion; witnesses |
| C131 | the Forchheimer residual, Newton's iteration with a numerical Jacobian, boundary fluxes | closed form of the solution, monotonicity for uniqueness; invariant of the loop; witnesses |
| C132 | the update functions of the stencil as assignments to its fields | independence of the previous state; pairing of faces and an involution on sums; witness |
| C133 | state machine of main thread, worker, and a stream with buffer and disk | invariants over all schedules; schedules as witnesses |
| C134 | buffers as functions, loops over faces, formatted names, search for the closest corner | folds, convexity; witnesses |
| C135 | mapper as list of calls; sums over vertices and elements; fluxes on vectors and tensors of the plane | induction over calls and elements, double counting, algebra; witnesses |
| C136 | numbers with one derivative as in automatic differentiation, fluxes as written in the code | the derivative of the value is the carried derivative (HasDerivAt), by rules of calculus; witnesses |
| C137 | fluxes of C136, tortuosity as real power | algebra, sums, monotonicity of powers; witnesses |
| C138 | iterator as rest of the list of intersections; check as sums over the elements of the general linearizer | induction over the list; balance of C34; witnesses |
| C139 | hierarchy of cells as paths, container as function, leaves as finite set, events | induction over events; witnesses |
| C140 | names as lists of characters, functions of index and configuration | case analysis over branches and configurations, injectivity of decimal numbers; witnesses |
| C141 | index set as list over the domestic indices of the processes of C102 | from the correctness of the constructed overlap (C102) |
| C142 | Overlap (VertexSpec): `constructWith` is the constructor of C102 with the peer set of the foreign overlap; walks along entries of the matrices of all processes | invariant of the levels: before the exchange the seeds are the vertices found through the own matrix, after it all vertices at this distance (the process with the last entry of a shortest walk tells all which share the vertex); then the numbering (C48), an invariant for indices which several peers send, and C50; a row of three processes with a ghost vertex violates it |
| C143 | Solver: state machine with the shapes (version of the grid, list of modules) of all matrices and vectors, the pointer to the preconditioner and the preconditioners in memory; every iteration ends at any of the places where it may | invariant over histories; witnesses for the violations |
| C144 | Solver (Adapter): pattern and partial function from positions to blocks | induction over the list of additions |
| C145 | Vtk (Switches): buffers, switches, names and values of the five modules; one write of the files | induction over the visits; comparison with an independent table of described fields; witness for the violation |
| C146 | Art: the converter line by line (characters), the fracture mapper as filled by the DGF vanguard | round trip: induction over the lines of every file of a grammar; case analysis over order and direction of the edges of a triangle; witnesses |
| C147 | Storage (Phase): storage terms per phase of four local residuals, sums over elements, threads and processes, stencils of both discretisations | sums over lists as integrals, permutations; double counting over a symmetric neighbourhood |
| C148 | `Verif.ParSolve`: the solver of `Verif.Krylov` with the operator, the Jacobi preconditioner, the scalar product, the criterion and the right hand side which the programs of all processes compute (`Parallel`), and the same system on one process (`Whole`) | a simulation of the solver's memory: each entry of the distributed vectors is a copy of one of the whole vector; uses the theorems on overlaps, matrices, vectors, scalar products and criteria |
| C149 | `Verif.Setup`: the constructor of the simulator as a process which calls collective operations; all processes advance together, and end without a result if one has left or if they call different operations; `gatherStrings` is that of C108 | induction over the steps; the end of all processes is shown to be unique |
| C150 | `Verif.Volumes`: the loop over interior elements, the exchange of volumes as that of C28 with the interface from interior and border entities to all, the sum over processes; the loop over vertices for the bounding box | the tally of a process is the sum over its own cells; sums over owners are sums over the cells |
| C151 | `Verif.StepSize`: `nextTimeStepSize` of `FvBaseProblem`, put into the time loop of C17–C19 together with the time integration of C15 and the suggestion of the Newton method of C14 | case analysis for one choice; invariants of the time loop for whole runs |
| C152 | `Weights/Model.lean`: `primaryVarWeight`, `eqWeight` and `updateBegin` of the immiscible, Richards, PVS, NCP, flash and black-oil models and of the discretization, `EnergyModule`, `updatePVWeights`, `numericEpsilon`; failed assertions are `none`; accesses of two threads to the shared array | case analysis; first match of `find?` over a range; fold invariant for the minimum; witnesses and a family of schedules for the violated parts |
| C153 | `Initial/Model.lean`: `applyInitialSolution`, both versions of `syncOverlap`, `globalResidual` on the message passing machine of `Mpi`; `Initial/Spec.lean`: a grid spread over processes | last assignment wins in the fold; communication lemmas of C28; sums over cells regrouped by owner; norm as a weighted sum over degrees of freedom |
| C154 | `Flows/Model.lean`: `createFlows_`, `updateFlowsInfo` with an arbitrary order of writes, norms of velocities | distinct places of a table may be written in any order; induction over the number of updates; sums over boundary faces regrouped by face; residual and antisymmetry from C04/C05 (`Tpfa`) |
| C155 | `effectiveProperties` of the solvent extension: effective saturations, mixture viscosities, effective densities, formation volume factors, viscosities and mobilities (`Todd/Model.lean`) | Over the reals: harmonic means of fourth roots, interpolation and convex combination give bounds; the fractions are shown to be in [0,1] in every branch; witnesses for the violations. |
| C156 | `Decks/Model.lean`: `initFromState` of the foam, brine, solvent and polymer modules as runs which end with parameters, an exception, a failed assertion or undefined behaviour; tables of a deck, resized vectors, maps of tables, look-ups | loops over resized vectors as collections of results; for foam an equivalence with the specification; case analysis for the others; witnesses for the violated parts |
| C157 | `Pvtsol/Model.lean`: `initFromState` of the extended black-oil module as a sequence of calls of the tables, `zFractionUpdate_`, `zPvtUpdate_`, dissolution factors and densities of the intensive quantities; what tables return is left open; `Pvtsol/Spec.lean`: what is to be kept of a deck | induction over rows with the previous row as start value; filtering by position; algebra; witnesses for the violated parts |
| C158 | `Pack/Model.lean`: `serializeOp` of simulator, discretization, block vectors and black-oil primary variables as lists of members, each packed or unpacked in place; comparison operators; cache of `Cache/Model.lean` | induction over elements with a relation between packed and unpacked; composition of members; witnesses for the violated parts |
| C159 | `Params/Print.lean`: `printValues`, `printUnused`, `printUsage`, `printParamUsage_`, `getTtyWidth_` and the part of `start` which prints, as lists of lines; read back with `parseParameterFile` and `setupParameters` of `Params/Model.lean` | lines are parsed one by one and assigned in order (names occur once), composition with C03 and C07; witness for `IsSet` |
| C160 | `Balance/Model.lean`: the models of `Simulator::run` (TimeLoop), `timeIntegration` and `update` (TimeInt), `NewtonMethod::apply` (Newton) and `TpfaLinearizer` (Tpfa) put together; amounts, supply and imbalance in `Balance/Spec.lean` | invariant of the time loop (both time levels agree between steps), success of the Newton method after at least two iterations, C34 for the sum of the residuals, induction over the steps of the run; witnesses for the violated parts |
| C161 | `ParNewton/Model.lean`: `NewtonMethod::apply` on all processes in lockstep (`syncOverlap`, linearization with cached quantities, overlapping residuals, maximum of errors, votes, parallel linear solver, update), `setMatrix` with matrices used again; equations and settings in `ParNewton/Spec.lean` | one pass on all processes corresponds to one pass on one process (composition of C28, C103, C106, C179; maxima over processes), induction over the passes; existence of runs for all equations and distributions; witness for stale copies |
| C162 | `ParSim/Model.lean`, with constraints `ParSim/TiedModel.lean`: `Simulator::run` (TimeLoop) with `timeIntegration`, `update`, `advanceTimeLevel` around the Newton method of one process (Newton) or of all processes (ParNewton), with what the Newton method remembers between calls; tasks, callbacks and sameness in `ParSim/Spec.lean` | two problems whose functions correspond make the time loop correspond (parametricity, induction over steps); C161 for each attempt of a time step; existence of machines for all local tasks and distributions |
| C163 | `Convergence/Model.lean`: `relativeDofError`, the loops of `addConvergenceVtkFields`, `FvBaseNewtonConvergenceWriter` as a state machine driven by calls of the Newton method | maxima of lists, invariant of the loop over degrees of freedom, induction over calls; witnesses for limited updates and for more than a hundred iterations |
| C164 | `ThreadSim/Model.lean`: Balance with the system left behind by any linearization and a linear solver which gets it; the three ways to assemble a system (interleaved threads of `TpfaLinearizer`, of `FvBaseLinearizer` without and with a lock) in `ThreadSim/Spec.lean` | entries of all three are those of one thread (C38, C72, C73), hence the problems seen by the time loop are equal; complete schedules exist; balance by C160 |
| C165 | no new model: simulations of `Balance/Model.lean` with the updates of `BlackOil/PrimaryVars.lean`, `PtFlash/Model.lean` and `Ncp/Model.lean`; undefined updates may do anything (`Bounds/Spec.lean`) | an invariant of single updates (C52, C53, C91, C96) is one of the Newton method, of retries and of the time loop; runs whose updates differ only outside of the invariant are equal; witness without projection |
| C166 | `RestartSim/Model.lean`: simulations of `Balance/Model.lean` which write and read the files of `Restart/Model.lean` | round trip of the file (C58), both time levels agree when the file is written, entries outside the grid never change, invariant of the flag for episodes; the configurations are equal, hence all later ones; two witnesses with an implicit Euler method whose final solutions differ |
| C167 | `Flux/Boundary.lean`: boundary fluxes of the transmissibility based module and module entries of `setFreeFlow`, with the phase rates of `Flux/Content.lean` | equality with the flux to a cell with the prescribed fluid on the face (C82–C84), algebra for rest and direction; outflow compared with the fluxes of `Extend/Model.lean`; witnesses and general negations for inflow, salt, polymer and gravity |
| C168 | no new model: simulations of `Balance/Model.lean` with fluxes of `Flux/Trans.lean` and `Flux/Boundary.lean`; solver of `Krylov/Model.lean` | hydrostatic states have vanishing residuals (C83, C167), a vanishing residual gives a zero update, so the set with one element is invariant under passes of the Newton loop, attempts and steps of the time loop; direct evaluation of the solver for zero right-hand sides |
| C169 | no new model: simulations of `ParSim/Model.lean` on several processes; `ParBalance/Spec.lean`: conserved quantity, fluxes and supplies | refinement to one process (C162), then induction over steps of the time loop; fluxes cancel in the sum over the cells of the grid; the sum over own cells of all processes is the sum over cells of the grid, because every cell has exactly one owner |
| C170 | `PtFlash/Cell.lean`: quantities of a cell of the PT-flash model from primary variables, storage term and advective fluxes; flash solver and equation of state from outside | algebra: saturations are volumes of liquid and vapour, so that the storage term is the amount of the mixture; way back by C98 |
| C171 | `Hints/Model.lean`: slots of an element context with pointers into the cache of `Cache/Model.lean`, visits of elements, use of hints by three models | invariant over arbitrary visits: coherent cache and harmless pointers; a missing cache entry implies a missing hint of the same level; computation of two visits for the violation |
| C172 | `Cache/Refresh`: both overloads of `invalidateAndUpdateIntensiveQuantities` on top of the cache of `Cache/Model` | induction over the elements; an entry is refreshed as soon as it is marked and asked for, and later elements keep it refreshed |
| C173 | `Flux/Agree.lean`: both `computeFlux` with diffusion, dispersion and convective mixing, on top of `Flux/Trans`, `Flux/Content`, `Extend/Diffusion`, `Extend/Mixing`; mass part of `computeBoundaryFlux` | both are rewritten as the same sum over the phases plus the modules (C88); antisymmetry from C82, C128, C129; witnesses for the differences |
| C174 | `BlackOil/SolventIQ`: `rsSolw_` and `solubilityLimit`; `Extend/Dissolved`: `solventPvtUpdate_` after the division by viscosities and the densities of `Extend/Quantities`, with the storage terms of `Flux/Content` and `Extend/Model` | the update in closed form for CO2, H2 and other solvents, then C130 for the other phases; case analysis of `adaptSolvent`, which the rest of `adapt` leaves alone; witnesses for masses, directions, scaled pressures, salt and capillary pressure |
| C175 | `OverlapMatrix/Model` on the overlaps of `Overlap/VertexSpec` (C142) | which entries are sent, what native values are, and sums over peers are turned into sums over all processes; the product as a double sum over processes and columns, of which only those in the overlap count; schedules by the refinement of rounds (`Mpi/Rounds`) |
| C176 | `OverlapMatrix/Copy`: `assignCopy`, `syncCopy`, `receiveCopyEntries_` | for cells only the owner of a row sends it; for vertices the closed form of a round gives the swap |
| C177 | `ParSolve/Model` (`ParallelOn`) on the overlaps of vertices (C142) and matrices (C175); the one process in `ParSolve/VertexSpec` | as for C148: a simulation of the solver's memory; sweeps are right at a vertex as long as the layers around it last (induction on sweeps and steps) |
| C178 | BlackOil/ScaleModel: `makeEvaluation` with derivatives, the Jacobian of equations which see variables through their evaluations, a Newton iteration with an exact linear solution; on top of the existing switching, limiting and projecting | every function commutes with dividing the pressure variable by the scale; the column of the pressure is multiplied by the scale, so solutions are divided by it; induction over the variables of a cell; the limits of pressures and the solubility of solvent are counterexamples |
| C179 | `ParSolve/BlockModel`: the parallel solver for vectors of blocks (functions on `Fin n`) and matrices of `n × n` matrices, on the messages, overlaps and matrices of the other modules, which are generic in what they send; the solver itself sees the scalar entries one after the other; the one process in `ParSolve/BlockSpec` | as for C148: each scalar entry of the distributed vectors is a copy of one of the whole vector; scalar products of blocks are regrouped to a sum over all entries |
| C180 | `Vtk/FacesModel.lean`: `processElement` and `commitBuffers` of the multi-phase and fracture output modules as loads and stores of threads, faces which a process visits; sequential code in `Vtk/Fields.lean` | sums over faces by induction; an invariant over interleavings for entries which only one thread changes; witnesses for lost updates, borders and small extrusion factors |
| C181 | The simulations on several processes of C162 (ParSim) with the parallel Newton method of C161 and the parallel linear solver of C179 | Refinement to the run on one process (`C162_simulation_partial`); there the linear solver returns zero for a residual of zero (`C168_zero_combined`), so that the Newton method keeps the solution (`loop_stays`, `apply_rest`), and induction on the steps of the time loop |
| C182 | `ParCache/Model.lean`: the simulations on several processes of C162 with caches of intensive quantities which are filled in any way from the solution of the process before each call of the Newton method | Stronger invariant than C162 (copies agree as well), kept by `C161_copies` if a step has several iterations; induction on the steps of the time loop. The violation: a process whose first linearization uses the cache solves other equations (`frozenEquations`), to which C161 applies, and whose residual is too large on one process |
| C183 | `ParRestart/Model.lean`: names and cookies of the restart files of all processes, writing in any order into a directory, reading by new processes; contents as in C20/C58, simulations as in C162 | Names and cookies are injective (a separator does not occur in what is before it); induction over the order of writing; refinement of both simulations to one process (C162), where what is left in the Newton method does not matter (a relation kept by each step of the time loop), then the argument of C166; a concrete run of three processes for the refuted part |
| C184 | `Hybrid/Model.lean`: the network of cells, connections and boundary faces which the linearizers see on a process which has a part of the grid (faces where the part ends count as boundary faces); assembling as in C38/C73/C164, everything else as in C162 | Entries assembled by any schedule are those of one thread (C164); sums over the local connections are sums over the connections of the whole grid for cells all neighbours of which are there; then the rows of own cells are those of the task and C162 and C169 apply (constraints: clearing rows of the assembled system gives the rows of the equations with constraints, `ParSim/TieProps.lean`); connections pair up, so that the equations balance (`Balances`) |
| C185 | `Reservoir/Model.lean`: storage, component and energy fluxes of the black-oil residual for TPFA with derivatives (`TrivSqZeroExt`), upwinding with its tie-break by local indices; the rest as in C184, where each process may use its own numbering | Value by value comparison with Darcy's law and the contents of phases; at ties the flux is zero, hence the choice does not matter for values; derivatives by cases of the upwinding; then the refinement of C184 with rows of the owners, C162 and C169; two cells with equal pressures for the refuted part, by solving the linear systems |
| C186 | `ConstraintMap/Model.lean`: `updateConstraintsMap_` with several threads which share a `ThreadedEntityIterator` and a map; insertions have a beginning and an end, overlapping ones are undefined behaviour | invariant over all schedules (every constraint of an element which was handed out is in the map or still to be done by the thread which has the element; threads have different elements); construction of a schedule with a race for all grids with two elements with constraints |
| C187 | `MassCons/Model.lean`, `MassCons/PvsProps.lean`, `MassCons/BlackOilProps.lean`: `assignMassConservative` with the flash solver as parameter, storing and reading of the immiscible, NCP, PVS, flash and black-oil models; fluid systems, material laws and solvers are parameters with contracts | Storing and reading give back equilibria (C57, C95, C78 for PVS, NCP and black-oil), sums over phases, absent phases contain nothing; the contract of the flash for the amounts; concrete systems of two phases for the refuted parts |
| C188 | `Retry/Model.lean`: `timeIntegration` as in C15, with constraints which are written into the solutions of both time levels at the beginning of each attempt; the Newton method as parameter | Invariant of the loop: applying the constraints of any smaller step to the previous time level gives the same as applying them to the solution of the last time step; one cell with a constraint which begins later for the refuted part |

### Status

| id | property | status | remarks |
|---|---|---|---|
| C01 | Parameter precedence | proved | For every registration history, every list of distinct well-formed options and every well-formed parameter file. |
| C02 | Registration protocol | proved | Acceptance of each call as a function of the history alone; rejected calls have no observable effect. |
| C03 | Help option names are accepted by the command line parser | proved | For all CamelCase names (upper-case first letter), all values. |
| C04 | Command line: all-or-error, no duplicates | proved | Exact characterisation of accepted command lines without positional arguments. |
| C05 | Quoted parameter values round-trip | proved | Round trip for all texts; an unterminated text is an error. |
| C06 | Malformed parameter file lines are rejected | partial | The full property is false of the code (exceptions constructed but not thrown): negation proved in C06_malformed_line_rejected_violated. Well-formed lines and key-only lines are handled as stated. |
| C07 | Help text wrapping loses no text | partial | The full property is false (negation proved); proved for texts whose line breaks are followed by a blank two positions later. |
| C08 | --help never starts a simulation | partial | The full property is false (help has status -1, start() tests 1 and 2): negation proved; partial theorem for problems without usable default end time / step size. |
| C09 | Newton success means converged | partial | A converged outcome has an accepted error except in one case: if the initial solution already meets the tolerance, one update without a check is made. Negation of the full property proved (exact Newton on x^2+1/10). |
| C10 | Newton terminates | proved | For every problem and every number of iterations allowed. |
| C11 | Failed Newton solves leave no trace in the solution | partial | Failures which the Newton method handles leave no trace; other exceptions leave the last iterate in place (negation proved). |
| C12 | Constrained degrees of freedom keep their prescribed value | proved |  |
| C13 | Undefined residuals are never accepted as converged | partial | std::max discards a NaN unless it is the last entry: negation of the full property proved, partial theorem for the last entry. |
| C14 | Time step suggestions are bounded | proved |  |
| C15 | Time integration retries are bounded and never shrink below the minimum | proved | Without constraints, which also change the solution of the previous time level: see C188. |
| C16 | ContinueOnConvergenceError continues with the computed iterate | partial | The accepted solution is always the old one, not the last iterate: the documented behaviour is refuted, the actual one proved. |
| C17 | Simulation clock consistency | partial | The clock is the sum of the completed steps and never goes back; that the advanced size is the integrated one is false if endTimeStep or the output change the step size (negation proved). |
| C18 | Episode and time-step callbacks are well bracketed | proved |  |
| C19 | Steps do not cross the episode end or the end time | partial | True of all steps but the first of an episode, which is not limited: negation proved. |
| C20 | Restart files restore the simulation clock | proved |  |
| C21 | Distinct restart times give distinct restart files | partial | File names use six significant digits: negation proved, partial theorem for times which six digits determine. |
| C22 | The forced time-step file is read completely | partial | Files of numbers separated by blanks are read exactly, and C22_blanks says what blanks are. False of all others: reading does not terminate for missing files and for malformed ones, blanks at the end and empty files give an uninitialised time step, characters at the end which are no number give a step of size zero: five negations proved. |
| C23 | Every dispatched tasklet runs exactly as often as requested | proved |  |
| C24 | Tasklets start in dispatch order | proved |  |
| C25 | A failing tasklet is never lost | proved |  |
| C26 | Barriers neither deadlock nor return early | proved |  |
| C27 | Threaded entity iteration visits each entity exactly once | proved |  |
| C28 | Ghost synchronisation handles compute the advertised reduction | proved | For every interface with the documented guarantees of the grid (the same lists of entities on both sides; all gathering before all scattering). |
| C29 | Timer accounting | partial | Restarting a running timer loses the running interval (negation proved); all other histories proved. |
| C30 | Scope guards fire exactly once | partial | Re-enabling a moved-from guard makes its action run twice (negation proved); all other histories proved. |
| C31 | Cached intensive quantities are never stale | partial | Proved for all usual histories and, for the previous level, without recycled storage; constraints, foreign residuals and recycled storage give stale quantities (four negations proved). |
| C32 | Time levels shift correctly | partial | Proved for histories of two time levels; longer histories are not shifted (negation proved). |
| C33 | Auxiliary equations get disjoint, gap-free index ranges | proved |  |
| C34 | Local mass conservation of the assembled residual | proved |  |
| C35 | Reported global storage does not depend on caching | partial | Proved for all switches except cached and recycled storage at the previous level, where it is false (negation proved), as it is for evalStorage of cached contexts. |
| C36 | Linearization does not depend on history | partial | Proved for the two-point flux linearizer and for the rows of the grid in the general one; rows of auxiliary equations accumulate (negation proved). |
| C37 | The assembled TPFA Jacobian is the derivative of the assembled residual | proved |  |
| C38 | Threaded TPFA assembly is schedule independent | proved |  |
| C39 | Subdomain linearization leaves the rest alone | partial | The cells of the subdomain get what the full linearization gives, others keep theirs unless they have boundary conditions or are neighbours (rows of the matrix): two negations proved. |
| C40 | Erasing the matrix is safe | partial | Proved for the general linearizer; with the two-point flux linearizer every linearization after an erasure uses a null pointer (negation proved for all histories). |
| C41 | Boundary condition updates take effect | partial | Proved for faces which have a condition now; removed conditions stay in use and late ones are ignored: two negations proved. |
| C42 | Numeric derivatives are exact for affine residuals | proved |  |
| C43 | Face values interpolate linear functions exactly | partial | Exact in the middle only; everywhere else every non-constant linear quantity gets a wrong value (negation proved in general). |
| C44 | Stashing and restoring a degree of freedom is transparent | partial | Proved for derivatives with respect to one degree of freedom, and for the intensive quantities always; false of primary variables with two (negation proved). |
| C45 | 4x4 block inversion | proved | Over every ordered field (exact arithmetic). |
| C46 | BiCGStab: success means the residual criterion holds | proved | For every operator and preconditioner in exact arithmetic. |
| C47 | Convergence criteria decide what they document | partial | Proved for the reduction, combined and fix-point criteria; the weighted one reports failure together with convergence (negation proved). |
| C48 | Global indices are consistent across processes | partial | Proved for overlap sizes of at least one and for border lists with distance zero; false of overlap size zero with element border lists (negation proved). |
| C49 | Parallel dot products count each unknown once | proved |  |
| C50 | Overlap synchronisation is correct for every message order | proved | For overlaps which fit together on all processes (Coherent); the construction of the overlap is not part of this theorem. |
| C51 | Preconditioner failures are agreed on by all processes | partial | Proved if every process has peers; a process without peers skips the collective operation (negation proved). |
| C52 | Black-oil Newton updates are limited | partial | Every update vector, state, fluid, capillary pressure law and parameter within the usual ranges: limiting, switching and projecting together change no phase saturation by more than the maximum in models without solvent (C52_saturations_partial); pressure, factors and all bounded variables for every model.  With the solvent module the limit is violated (C52_solvent_violated): the solvent saturation is put back to zero after limiting. |
| C53 | Saturations can be normalised without division by zero | proved | For every layout without collisions and every value; not both the water and the gas variable disabled (then nothing is done). |
| C54 | Primary variable switching does not oscillate on its own and reports changes | partial | reports a change exactly if the water or gas meaning changed (three-phase cells or cells not filled with water), compatibility kept unless water-filled, gas and salt switches never undone, water switches not undone unless gas or salt switch at the same time; violated: two-phase water-filled cells always report, salt and solvent switches are not reported, water-filled cell leaves (Sg,Pg), simultaneous water and gas switch is undone by the next call |
| C55 | Primary variable and equation indices form a complete, collision-free layout | partial | Holds for all combinations without extbo and without polymer and MICP together; the others collide (C55_*_violated). |
| C56 | The number of switched cells is counted once | partial | exact formula: the reported number is the sum over the processes times the number of processes; right on one process; violated on two or more whenever something is switched; zero exactly if nothing is switched |
| C57 | PVS primary variables represent the fluid state | partial | storing and reading proved for every number of phases up to 15 (the bits of a short) and components; the pressure limit is proved; the saturation limit holds for up to three phases without gaps between present ones and is violated with gaps and with four phases |
| C58 | Restart files round-trip entity data | partial | Round trip and rejection of wrong cookies and grids proved; truncated files are accepted silently in some cases (negation proved). |
| C59 | Default values read back exactly | partial | Defaults are stored with six significant digits: negation proved, partial theorem for short literals. |
| C60 | The printed parameter list is a valid parameter file | partial | False for values containing a double quote or backslash (negation proved); proved for all others. |
| C61 | A simulation ends | proved |  |
| C62 | A simulation is not ended early | partial | The tolerance of finished() is multiplied by the time: negation proved, partial theorem for positive times. |
| C63 | Predictions of the end of episode and simulation are right | partial | episodeWillBeOver is right; willBeFinished is right unless the flag is set or the tolerances differ (negation proved). |
| C64 | Black-oil restart data round-trips | partial | Module values are written without separators and brine/solvent meanings are not saved: negations proved, partial theorem without these modules. |
| C65 | A restarted run continues the interrupted run | partial | The step size and the pending start of an episode are not saved: two negations proved, partial theorem if they agree. |
| C66 | Destroying a tasklet runner completes its work | partial | All dispatched tasklets complete and the workers end; but the worker releases the queue mutex twice when it terminates (undefined behaviour): negation proved. |
| C67 | A tasklet dispatched with zero invocations is not run | partial | Holds without worker threads; with workers the tasklet runs for ever and barriers do not return: negations proved. |
| C68 | The storage cache does not change the residual | partial | Proved if the first iteration starts from the previous solution or storage is not recycled; false otherwise (negation proved). |
| C69 | Solution vectors have one entry per degree of freedom | partial | Proved after additions; false after clearing (negation proved). |
| C70 | Updated coefficients of connections take effect | partial | Proved of the transmissibilities; the other coefficients are never updated (negation proved). |
| C71 | Constraints are collected with any number of threads | partial | Proved for one thread; several threads race (negation proved). |
| C72 | The two linearizers assemble the same linear system | proved |  |
| C73 | Threaded assembly with the general linearizer is schedule independent | proved |  |
| C74 | Two-point gradients are exact along the line between cell centres | proved |  |
| C75 | BiCGStab computes the iterates of the published algorithm | proved |  |
| C76 | BiCGStab stops at the first iterate which meets the criterion | partial | Proved for the iterate in the middle of an iteration; the one at its end is judged by a stale residual (negation proved). |
| C77 | Failures during a Newton iteration are agreed on by all processes | partial | Proved for the black-oil Newton method; false of the general one and of preparing preconditioners (negations proved). |
| C78 | A fluid state stored in black-oil primary variables can be read back | partial | proved for all models without solvent, extbo, precipitated salt, if gas dissolves in water only in models without oil; violated with oil and water without gas if gas dissolves in water |
| C79 | Phases appear continuously in the black-oil model | partial | proved without solvent, precipitating salt and water-filled cells; violated with solvent: the oil saturation is negative before oil appears; violated with precipitating salt (`C79_salt_violated`): all dissolved salt above the solubility is gone when solid salt appears (`C79_salt` says what is kept) |
| C80 | Fluid states in equilibrium are not switched | partial | proved without brine, solvent, extbo; violated with brine without salt precipitation, where switching takes the limit for fresh water |
| C81 | Wrapped help lines fit the terminal | proved |  |
| C82 | Fluxes between two volumes are opposite | partial | transmissibility based modules proved; the Darcy module unless the line between the volumes lies in the plane of the face, where it is violated for full permeability tensors |
| C83 | Fluids at rest stay at rest | partial | proved for interior faces of both modules and for boundary faces of cells; violated at boundary faces of vertex centred volumes |
| C84 | Flow goes down the potential and takes along what is upstream | partial | transmissibility based modules proved; Darcy law proved for the Darcy module, the upstream choice only if the permeability does not turn the flow through the face backwards (violated otherwise) |
| C85 | Free-flow boundaries: inflow brings the prescribed fluid | partial | proved without gravity; violated with gravity because pressures instead of potentials are compared |
| C86 | Black-oil boundary rates count components like the storage terms | partial | proved for conservation of surface volumes if flow follows the pressure; violated for the default conservation of mass (reference densities applied twice) and if pressures are equal but gravity drives flow |
| C87 | Inflow and outflow boundaries are one-way | partial | directions proved; equality with free flow if all phases flow in the permitted direction and amounts are not negative; violated for negative enthalpies and countercurrent phases |
| C88 | Black-oil storage and fluxes count components the same way | proved | storage and fluxes of the mass equations; additional modules (solvent, polymer, ...) not modelled |
| C89 | Rates given as mass, amount of substance or volume agree | partial | NCP proved; violated for the energy equation of PVS, immiscible and Richards models, volumetric rates of PVS and flash models, black-oil volumetric rates with surface volumes and black-oil molar rates without solvent |
| C90 | Transmissibilities belong to their faces | partial | interior faces proved; boundary faces violated: an interior face is looked up |
| C91 | NCP Newton updates are limited | partial | all limits proved for up to three phases in every iteration and for any number of phases from the fourth iteration on; violated for four phases in the first three iterations, where cutting off single saturations breaks the limit of the last phase |
| C92 | NCP saturations stay physical in the first iterations | partial | proved for all saturation variables and fugacities strictly inside their range and for the last phase with two phases; violated for the last of three phases and for saturations which are exactly one |
| C93 | The phase presence equations express phase presence | proved |  |
| C94 | Accepted NCP solutions obey the phase presence conditions | partial | proved for the conservation equations; violated for the phase presence conditions, which the error ignores |
| C95 | Fluid states stored in NCP primary variables can be read back | proved | the compositions for fugacity coefficients which do not depend on the composition (the solver for compositions is not part of the repository) |
| C96 | PT-flash Newton updates are limited | partial | everything proved for up to three components; violated for the last of four components, because single mole fractions are cut after scaling |
| C97 | PT-flash cells always have a valid composition | proved |  |
| C98 | Fluid states stored in PT-flash primary variables can be read back | partial | exact if every component is present in every phase, otherwise up to 1e-8 per phase over the total amount; violated exactly if a phase is absent: the floor is added to the amounts but not to their sum |
| C99 | Richards updates change saturations by at most 0.2 | proved | for laws which invert capillary pressures for all saturations (regularized laws) and cells whose liquid saturation is not negative |
| C100 | States stored in Richards primary variables can be read back | partial | wetting phase proved; violated for the non-wetting phase: the pressure of the wetting phase is never set |
| C101 | Grid adaptation marks elements at fronts and counts them | partial | proved for one phase; with more phases the mark is that of the last phase (proved), so fronts of other phases may not be refined, and elements are counted once per phase (negations proved) |
| C102 | Each process gets exactly the cells of its overlap | proved | for grids distributed by cells (all entries of the border list at distance one) whose border lists are right (see C104) and positive overlap sizes; see C142 for vertices. With size two or more, cells of third processes are not part of the overlap as specified and set up |
| C103 | The overlaps which are set up suit distributed vectors | proved | for the overlaps of C102; removes the assumptions of C50 for them. See C142 for vertices |
| C104 | The border list says which own cells other processes have copies of | partial | proved if each own cell of which others have copies has an own neighbour; violated otherwise: data of discarded cells stays in the buffer and is taken for that of the next cell, and a process with a single cell makes its neighbours wait for ever (both proved) |
| C105 | The matrix of each process is its part of the matrix of the whole grid | proved | for cell-centred grids, whose overlaps are those of C102; values are scalars instead of blocks |
| C106 | Parallel products are those of the matrix of the whole grid | proved | for cell-centred grids, in exact arithmetic: any semiring; matrices with blocks are matrices over the scalars of the blocks |
| C107 | A property lookup finds the definition that applies | partial | everything but overriding proved in full; overriding proved if no tag is inherited on two ways, violated otherwise (witness: the hierarchy of the test program), and splices of a base take precedence over those of the derived tag |
| C108 | Gathered strings are those of all processes | partial | proved if the packed strings together fit into an int; violated otherwise |
| C109 | Human readable times mean the time | partial | closeness proved; whole numbers and ranges proved except that the last number can equal the next larger unit (60 seconds, 24 hours: violated). The number of digits the stream prints is not modelled |
| C110 | The number of threads is what was asked for | partial | proved for successful initialisations; violated after rejected ones (the rejected value is kept) and for negative values other than -1 (accepted with OpenMP) |
| C111 | Message buffers own their memory | partial | proved without copies; violated with copies (memory freed twice) and for messages of more than 2^31 items |
| C112 | Allocated memory is large enough and aligned | partial | proved up to max_size objects; violated beyond it: the size in bytes overflows |
| C113 | Prefetch friendly vectors return what was stored | partial | proved for grids with a degree of freedom; violated (undefined behaviour) for grids without elements |
| C114 | Switching primary variables of the PVS model | partial | the number of switched degrees of freedom is proved for cells; violated for vertices shared by processes, which are counted several times. The fluid states are those of an arbitrary function of the primary variables |
| C115 | Restart files of the PVS model restore the phases | proved | for any number format which can be read back |
| C116 | Sub-control volumes partition the element | partial | lines, triangles, convex quadrilaterals, tetrahedra, parallelepipeds and columns over convex quadrilaterals proved; violated for quadrilaterals which are not convex (areas are absolute values) and for hexahedra whose faces are not plane (the two prisms of a sub-control volume do not share a face) |
| C117 | Faces of vertex-centred control volumes close up and point from the interior to the exterior | partial | closed surfaces and areas of boundary faces proved for all shapes; normals for triangles, quadrilaterals, positively oriented tetrahedra and parallelepipeds; violated for mirrored elements in three dimensions, whose normals all point the wrong way. Pyramids and prisms are not part of the model (the code rejects them) |
| C118 | Local geometries of sub-control volumes | partial | the geometry is proved in every dimension, areas and volumes in two and three; tables of lines, squares, cubes and tetrahedra proved; violated for the corner 0 of triangles, whose corners are listed in the wrong order |
| C119 | Finite element values and gradients are exact for linear functions | proved | shape functions and element maps are those of the libraries (dune-localfunctions, dune-geometry), written out in the model |
| C120 | Extra components of the black-oil model are carried, not created | partial | opposite rates proved for every extension; concentration times carrier proved above the floor of 1e-10 the code puts under the amount of carrier; violated: solvent dissolved in water follows the upstream cell of the solvent phase, without volume rates (mass formulation) dissolved solvent is counted in other units, extended black-oil storage and the floors give empty cells a content, sheared water no longer carries salt uniformly, vaporised water is sheared too |
| C121 | Solvent flows down its potential | partial | rates and opposite rates proved; agreement about the upstream cell above the threshold; violated for ties (solvent dissolved in water is then created) and for the permeability formulation, in which solvent flows up its potential |
| C122 | Mixed oil, gas and solvent lie between the pure fluids | partial | bounds proved for densities and viscosities of what is mobile, exact means for gas and solvent; violated for oil, whose density is computed from the solvent density already overwritten, and where no fluid is mobile (mixed density zero) |
| C123 | Relative permeabilities and pressures with solvent are consistent | partial | saturations and relative permeabilities proved for every table; the pressure difference only for the oil pressure as unknown; violated for gas and water pressure; bounds on relative permeabilities proved above the residual oil saturation, violated below |
| C124 | Polymer makes water slower, never faster | partial | for concentrations up to the maximum; violated above it (Newton only keeps concentrations nonnegative), where the mobility of water becomes negative |
| C125 | The shear factor of polymer solves its equation | partial | whenever a factor is returned it solves the equation up to the tolerance; violated: the iteration can cycle and throw although a solution exists, and faces are used as indices of degrees of freedom |
| C126 | Microbes, oxygen, urea and calcite react as the balance of their mass demands | partial | balances, signs and definedness proved for valid parameters; permeability monotone only above the critical porosity or for odd exponents; violated: even exponents let permeability grow again, non-integer ones give NaN, and biofilm and calcite are limited separately, so that their sum can exceed the pore space |
| C127 | Energy is balanced between cells and at boundaries | partial | conduction, convection, boundary and insulated boundary proved; common scaling only for convection and conduction between cells; violated: setThermalFlow and convective mixing are not scaled, boundary conduction is not divided by the area, assignPrimaryVars stores an index, restart overwrites every primary variable |
| C128 | Diffusion and dispersion only exchange components | partial | opposite fluxes proved for cells of one PVT region; violated across regions, with two vaporised components and when masses are conserved (volumes are added to masses) |
| C129 | Convective mixing lets dissolved gas sink | partial | opposite fluxes, direction, limits, carried energy and episodes proved for all cells; violated: solid salt is passed as dissolved salt, oil gets the density of water in the averaged density, and volumes are added to masses |
| C130 | Mobilities, masses and pore volumes of a cell follow from its state | partial | face mobilities, sums of masses and the effect of solids proved; violated: corrections of modules have no effect on directional mobilities, the reported relative permeability contains them, porosity grows as pressure falls far below the reference pressure |
| C131 | Fast flow obeys the Forchheimer equation | partial | existence, uniqueness, direction, bound, accuracy of returned velocities and opposite rates proved; violated: off-diagonal permeabilities are ignored without assertions, inflow mixes outside mobility with inside density and viscosity, mirrored problems are not mirrored |
| C132 | The stencil of a cell lists exactly its neighbours and faces | partial | full updates describe the cell for every history, conservation over the grid proved; violated: updatePrimaryTopology leaves the faces of the previous element |
| C133 | Visualisation files are complete whenever the program stops | partial | synchronous writing: complete document at every moment and exact continuation after restarts proved; data files proved for all schedules; violated: a worker writing between tellp and seekp loses an entry, and outputs pending at serialization are missing after a restart |
| C134 | Fields of visualisation files show the state | partial | assigned fields, averages, total fractions, corners proved; violated: unsynchronised additions of threads are lost, vertices which are never interior and cells without faces show NaN, fracture fractions are counted per phase, diffusion fields of all phases have the same name |
| C135 | Fractures take the place of the matrix | partial | marks, balances of storage and flux, opposite and downward flow proved; violated: fractures on the boundary of the domain have half their volume, wide fractures give negative storage without assertions, entry-wise means of full tensors let fluid flow uphill, saturations are limited on one side only, the documented parameters of assignNaiveFromFracture give another state, and the storage cache gives rates to unchanged states |
| C136 | With automatic differentiation the derivatives of fluxes are those of the fluxes | partial | mass and component fluxes of immiscible, flash, PVS and NCP models, face values and independence of residuals proved; violated: advective energy fluxes, mean conductivities and diffusion coefficients, the molar density of diffusion, and densities and conduction at boundaries carry derivatives of degrees of freedom which are not in focus, or drop those which are |
| C137 | Heat and diffusing components are exchanged, not created | partial | opposite fluxes, directions, tortuosity proved; violated: components with different coefficients do not replace one another, absent phases have a tortuosity as if 0.0001 of the volume were filled, and nothing diffuses over boundaries |
| C138 | Boundary conditions see their own face, and the check of conservation accepts what has converged | partial | cells proved for all orders of intersections, the check proved to measure the sum of residuals; violated: with vertices in two dimensions the iterator runs ahead of the faces and past the end, at borders of processes it is off by one, the check never moves it, takes the extrusion of another time, and is stricter for one sign of the rates |
| C139 | Data attached to cells survives adaptation of the grid | partial | effects of refining and coarsening, definedness and range of values for all histories, places of pure refinement or coarsening, conservation by refinement proved; violated: a cell which is coarsened and refined has the data of another place, coarsening takes the data of the first part and does not conserve, and data is not moved between processes |
| C140 | Every primary variable and every equation has a name of its own | partial | immiscible, PVS, flash, pressure-temperature flash and NCP models, models without names, the black-oil model with solvent, extended black-oil, polymer and energy, and the fields of the convergence writer proved; violated: foam, salt and MICP have no names, solvent and extended black-oil equations share one, with two phases the first additional equation is called after an absent phase, and equations of components are called after phases in another order |
| C141 | The multi-grid solver gets a correct description of the distribution | proved | for the overlaps constructed as in C102 (grids distributed by cells) |
| C142 | Processes which share vertices get exactly the vertices of their overlap | partial | proved if ghost vertices, which are black-listed, have higher indices than all others (or there are none); violated otherwise, because the exchange compares local indices with the native ones of the border list |
| C143 | The linear solver's matrix always fits the grid and the auxiliary equations | partial | proved if modules are only added before the first iteration or after they were cleared or the grid was changed, and if the vectors can be allocated; violated otherwise. A preconditioner stays in memory for ever if that of another process cannot be made; the number of these is exact |
| C144 | The sparse matrix interface is a matrix | proved | access outside of the pattern is undefined behaviour in the code and an error in the model |
| C145 | The parameters of the black-oil models decide which fields are visualised | partial | proved for all parameters but that of the correction of the water viscosity, which is ignored; values for fields whose phases are active |
| C146 | Grids with fractures survive the conversion from ART to DGF | partial | geometry proved unless white space follows the dollar sign which ends a section (violated); fractures stay fractures, but edges with both ends on fractures become fractures, and after a refinement no edge is a fracture (both violated) |
| C147 | Amounts within one phase are parts of the total | partial | proved for discretisations all of whose degrees of freedom are primary (vertex-centred); with cell-centred grids each cell is counted once more for every neighbour (violated) |
| C148 | The linear solver's result does not depend on how the cells are distributed | partial | Proved for the Jacobi preconditioner with as many sweeps as the overlap is wide enough for: always for one sweep (wide_one), as many as the size of the overlap for two processes (C148_two).  With three processes no overlap may be wide enough for two sweeps, and the preconditioner then gives other values than on one process (C148_sweeps_violated); with the default order of zero the solver always breaks down (C148_order_violated). Other preconditioners work on the parts of the processes, so their iterations depend on the partition by design. |
| C149 | The simulator is set up on all processes or on none, and all of them say why not | partial | Proved if all processes take part in the same collective operations within each step and exceptions are derived from std::exception. Negations are proved for other exceptions, for exceptions before a collective operation of the same step, and for an exception without a text on one process. |
| C150 | Volumes and the bounding box are those of the whole grid | partial | Volumes and local degrees of freedom are proved in full. The bounding box is proved for grids which have as many dimensions as the space around them; for others the negation is proved (the remaining coordinates are never looked at). |
| C151 | Default time steps keep to the limits and leave no tiny step at the end of an episode | partial | No tiny rest: proved for whole runs. Limits: negations are proved; the maximum may be exceeded by one percent and the minimum missed by a half, when between one and two steps are left. The partial theorems give exactly these bounds, for whole runs with any failures. |
| C152 | Weights of primary variables and equations are positive | partial | Proved that weights of the immiscible, PVS, NCP, flash and default models are positive if the reference pressure and molar masses are, that the reference pressure is that of the first local degree of freedom, and that steps of finite differences are positive. Violated: no reference pressure on processes without local degrees of freedom (and an access beyond the end with auxiliary degrees of freedom), negative pressures in the Richards model, no weights for brine, foam and MICP variables, and a race between threads in the NCP model. |
| C153 | The initial solution and the residual do not depend on the distribution of the grid | partial | Proved for cell-centred grids: all processes get the initial values of all their cells on all time levels, the residual is right for any order of elements and messages, and its norm is that of a single process. For vertex-centred grids the norm is between that of a single process and sqrt(P) times it. Violated: vertices outside of the interior cells start with zero, vertices on borders are counted several times in the norm (a comment in the code says so), auxiliary equations are left out. |
| C154 | Reported flows are those of the residual | partial | Proved for grids which iterate in the order of their indices and without auxiliary degrees of freedom: the table of flows, updates in any order and number, sums equal to the residual, opposite flows, labels of connections, norm of velocities. Violated: other orders of iteration mix up neighbours, auxiliary degrees of freedom are read beyond the end of the table, and the norm of the velocity is uninitialised memory before the first linearization. |
| C155 | Effective properties of mixtures of oil, gas and solvent | partial | Bounds on densities and viscosities, the unchanged cases and complete mixing are proved for all inputs where something is above the critical saturations; three violations are proved: the density of oil uses the already overwritten density of solvent, and with everything below the critical saturations the density of the solvent and its viscosity leave the range. |
| C156 | Set-up of extensions of the black-oil model from a deck | partial | Keyword checks, foam (complete characterisation), the shear multipliers and, for matching numbers of tables, brine, solvent and polymer are proved for all decks. Violated: too many PERMFACT or PCFACT tables and too few PVTWSALT or PLMIXPAR records give undefined behaviour, several miscibility regions are accepted without assertions, PLYSHLOG with molecular weight reads empty vectors, and brine, solvent and polymer parameters of an earlier deck survive. |
| C157 | Extended black-oil model: tables of PVTSOL and their use | partial | Acceptance of decks, ascending order of tables, negative compressibility of oil and positive densities are proved for all decks and cells; contents of tables for the first deck, masses without vaporized water, continuity at the bubble point up to the limit and at the dew point without capillary pressure. Violated: a second deck doubles all positions, water vapour is dropped from the density of gas, the formation volume factors jump beyond the limit and with capillary pressure, and equal RV in two rows makes the compressibility of gas not a number. |
| C158 | What is packed by one process can be unpacked by another | partial | Round trips of primary variables, solutions of any size and all time levels, and both comparison operators are proved for all objects; the simulator up to time step size, end time and the finished flag. Violated: the time step size is not packed, and cached intensive quantities of the previous solution survive unpacking. Losslessness of the serializer for numbers, enumerations, vanguard and problem is a hypothesis. |
| C159 | What is printed about parameters reproduces the run, unused ones are always shown, and the help lists every parameter | partial | For values without double quotes, backslashes and newlines the printed list, given as the only parameter file, reproduces the value of every registered parameter (whole set-up of a second run); reporting of unused parameters and completeness of the help message and its entries are proved for all inputs (texts without newlines). Violated: a second run takes all parameters as set (IsSet), and values with quotes or backslashes are not reproduced (C60). |
| C160 | A whole simulation conserves what it says it conserves, up to the Newton tolerance | partial | Proved for all runs (any number of steps of the time loop) of the composition of the models of time loop, time integration, Newton method and two-point flux linearizer, if every completed step begins at a solution which does not meet the tolerance yet and the simulation is not told to continue after failures. Violated otherwise: the Newton method accepts one unchecked update, and a failed step which is accepted keeps the old solution. |
| C161 | The Newton method on several processes does what it does on one | partial | Outcome, iterations, errors, freedom from deadlock and values of own cells are proved for all equations, constraints, distributions of the grid, overlap sizes, schedules, settings and numbers of iterations, on top of the models of the overlap, the overlapping matrices and the parallel linear solver; cells with constraints have the prescribed values on all processes after a success; copies after a success with more than one iteration. Violated: after a success with one iteration copies have been updated by zero instead of the update of their owners. Any number of equations per cell (blocks), cell-centred, no auxiliary equations, as many sweeps of the Jacobi method as the overlap is wide enough for, as preconditioner, exact numbers; cached intensive quantities of copies have to be right at first. |
| C162 | A simulation on several processes is the simulation on one process | partial | Proved for every number of steps of the time loop, relative to the model of the Newton method on several processes (C161): real arithmetic over an ordered field with exact sums, any number of equations per cell, cell centred finite volumes, as many sweeps of the Jacobi method as the overlap is wide enough for, as preconditioner.  With constraints, which are also written into the previous time level: C162_constraints_partial, C162_constraints_agree, C162_constraints_values (prescribed values after a time step which converged), C162_constraints_none, C162_constraints_exists, C162_tie_partial (for any task which is performed without constraints).  Cached intensive quantities: C182.  Callbacks of the problem are assumed to use values of own cells only and to do the same on all processes; that copies can be left behind after a time step is C161_stale_violated. |
| C163 | Output for analysing the convergence of the Newton method shows its updates | partial | Fields and their scaling proved for all inputs; times increase as long as no call of the Newton method has more than a hundred iterations.  Violated otherwise (C163_times_violated), and the relative error is that of the update before it is limited by the model (C163_limited_violated). |
| C164 | The number of threads, their schedule and the linearizer do not change a simulation | partial | Independence of threads, schedules and linearizers (C164_threads) is proved in full for the composition of the models: loads and stores of entries as atomic operations, exact addition (in floating point arithmetic the order of additions within one entry is fixed by the code for the two-point flux linearizer, but not for the locked one), the linear solver as an arbitrary function of the system. The balance of mass is proved with the restrictions of C160. |
| C165 | Bounded unknowns stay within their bounds during whole simulations | partial | Flash and NCP: proved in full for the composition of the models.  Black oil: proved for layouts without the solvent module and if saturations are projected; by default they are not, and then saturations become negative (C165_projection_violated).  Arithmetic of an ordered field, so updates are not NaN; no constraints, no auxiliary equations. |
| C166 | A restarted simulation computes the solutions of the uninterrupted one | partial | What is read is proved to be what was written, and the continuation to be the uninterrupted run for every later step, if the new process has the time step size of the saved one and no episode ended right before the file was written.  Without these conditions the property is false (C166_size_violated, C166_episode_violated).  The problem has to restore its own state; formats of numbers are lawful (C20_twenty_digits_suffice), one process, exact arithmetic. |
| C167 | Free-flow boundaries treat fluids like faces between cells | partial | Fluxes of the phases proved in full for the transmissibility based module (C167_flux, C167_hydrostatic, C167_direction).  Components: proved without gravity and with surface volumes conserved; solvent, microbes, oxygen and urea: proved for outflow.  The code violates the rest: content of the wrong side with gravity (C167_gravity_violated), inflow carries what the cell contains (C167_entering_violated), salt, foam and z fraction never cross the boundary (C167_salt_violated), polymer and dissolved solvent are counted differently (C167_polymer_violated). |
| C168 | A simulation which begins in equilibrium stays there | partial | Proved for the composition of the models of time loop, time integration, Newton method, two-point flux linearizer and transmissibility based fluxes, for exact arithmetic of an ordered field.  That zero updates change nothing is a hypothesis (it holds for the default update; for switched variables see C80), and so is zero for zero of the linear solver, which is proved for BiCGStab with the criteria in use (C168_zero_reduction, C168_zero_combined) and false with the fix-point criterion (C168_fixpoint_violated). |
| C169 | The total amount is balanced on several processes | partial | Proved for the composition of the models of grids, linearization, Newton method and time loop on several processes: the sum over own cells changes by what sources and boundary supplied, up to the tolerance.  Missing: steps whose initial solution meets the tolerance (then the Newton method does at least one step only by default, C160_balance_violated) and continue-on-error (C160_continue_violated).  Any number of equations per cell, of which the balance is one (nothing is asked of the others); arithmetic of an ordered field. |
| C170 | Cells of the PT-flash model store the mixture which the primary variables describe | partial | Storage and fluxes proved in full for a flash solver which divides mixtures and an equation of state with positive molar volumes (both are outside the repository).  The way back to primary variables is exact only if every component is present in both phases, see C98_absent_phase_violated.  Values only, no derivatives. |
| C171 | Thermodynamic hints do not change results | partial | Proved in full for the flash model and the model with complementarity conditions, and for every model if hints or the cache are off, and for the PT-flash model if storage terms are cached (C171_storage_cache_partial).  Otherwise the model based on PT-flash calculations uses the hint for the previous time, which is one of another cell if the context has visited another element before (C171_foreign_violated, C171_order_violated).  The parameter for hints has no effect if the cache for intensive quantities is off (C171_no_cache_violated). |
| C172 | Refreshing the cached quantities makes all of them belong to the solution | partial | Proved for the overload without a grid view from every state, and for the overload with a grid view at the current time index and its interior elements. The code violates the full property: with another time index the entries of that time index are invalidated, but those of time index 0 are updated (`C172_time_index_violated`), and elements of the overlap are skipped, which keep stale quantities (`C172_overlap_violated`). Threads which share the loop are not modelled. |
| C173 | Both black-oil residuals compute the same fluxes | partial | Equality proved if the multipliers for rock compaction are one, dispersion is not compiled in and the deck asks for the diffusion which is compiled in; the code violates the rest: only the two-point flux residual has the multiplier and dispersion, and it uses diffusion coefficients which are never set if the deck does not ask for diffusion (C173_multiplier_violated, C173_dispersion_violated, C173_deck_violated).  calculatePhasePressureDiff_ is not in the repository and taken to be that of the flux module; threshold pressures are left out.  Energy is in C127. |
| C174 | Solvent which is dissolved in water is accounted for in density, flow and phase changes | partial | Densities proved for surface volumes and common reference densities, without miscibility; mobility proved for common relative permeabilities; the phase change proved if pressures are not scaled, the pressure variable is that of the water, and salt is absent or precipitates.  The code violates the rest: with equations for masses dissolved solvent counts with the density of the water, directional mobilities are not corrected, and adaptPrimaryVariables evaluates the limit of solubility with the scaled pressure variable, without capillary pressure and without salt unless salt precipitates. |
| C175 | The matrices of processes which share vertices are parts of the assembled matrix | partial | The matrix proved in full for every overlap size; products proved for positive overlap sizes.  Without an overlap the operator is not the matrix of the whole grid (C175_apply_violated).  Ghost vertices have the largest indices (see C142_ghost_violated for others).  Values are scalars instead of blocks. |
| C176 | Matrices assigned by copying have the entries of the masters | partial | Proved for grids distributed by cells, whose rows belong to one process.  Violated for vertices shared by processes: the master takes over entries of its peers (C176_swap_violated).  Nothing in the repository calls assignCopy.  Values are scalars instead of blocks. |
| C177 | The linear solver's result does not depend on which processes share vertices | partial | Proved for the Jacobi preconditioner with at most as many sweeps as the overlap has layers, and at least one layer.  Without an overlap the operator is not the matrix of the whole grid (C175_apply_violated); with the default order of zero the solver breaks down in its first iteration, on one process as on several (C177_order_violated).  Other preconditioners work on the parts of the processes, so their iterations depend on the partition by design.  Ghost vertices have the largest indices (see C142_ghost_violated for others).  Blocks are scalars. |
| C178 | Scaling the pressure variable does not change a simulation | partial | C178_read and C178_assign hold without restriction; switching needs that solvent does not dissolve in water, Newton iterations also that the limits PressureMin/PressureMax do not matter. The negations for these cases are proved (C178_solvent_violated: the solubility is evaluated at the scaled pressure; C178_limits_violated: the limits are applied to the scaled variable). Linear systems are solved exactly; automatic differentiation, not finite differences. |
| C179 | The linear solver's result does not depend on how cells with several equations are distributed | partial | Proved for the block Jacobi preconditioner with as many sweeps as the overlap is wide enough for.  With the default order of zero the solver breaks down in its first iteration (C179_order_violated).  Other preconditioners work on the parts of the processes, so their iterations depend on the partition by design.  Diagonal blocks which cannot be inverted make the solver throw in reality; here their inverse is taken as zero. |
| C180 | Velocities and gradients in visualisation files do not depend on how the work is divided | partial | Order of elements: proved for all.  Threads: proved for degrees of freedom whose faces are all visited by one thread; violated otherwise, because the additions are not protected (C180_threads_violated: a uniform flow of velocity 1 is shown as 1/2).  Processes: proved for cells all of whose neighbours are own ones, and for gradients of all own cells; violated at borders, where faces are counted from one side only (C180_distribution_violated).  Fractures: proved for extrusion factors of at least 1e-4, violated for smaller ones.  One phase and one component of the vector at a time, exact numbers. |
| C181 | A simulation on several processes which begins in equilibrium stays there | proved | C181_stays: own cells of all processes keep their values on both time levels after any number of steps of the time loop; C181_first_attempt: if the equations can be evaluated, each time integration succeeds at the first attempt with its own time step size. The linear solver is the modelled BiCGStab on overlapping matrices, not an assumption. Example: diffusion with a second, nonlinear equation per cell on three processes. |
| C182 | Storing intensive quantities does not change a simulation on several processes | partial | Proved for runs in which no time step succeeds in exactly one Newton iteration.  Otherwise violated (C182_violated: diffusion with a sink on three processes; after a first step of one iteration the copies are stale, syncOverlap refreshes them in the next step, but the stored intensive quantities of the copies stay valid, the residual is too large and the simulation is given up, while without the cache three processes do what one does). |
| C183 | A simulation on several processes continues from the restart files of its processes | partial | C183_names, C183_rejected, C183_none, C183_files: names, cookies and contents of the files, whatever the order of writing is.  C183_continues_partial: the new processes do what the old ones would have done, under the assumptions which the library does not ensure: same time step size (C166_size_violated), no episode ended before the files were written (C166_episode_violated), and the Newton method may do two iterations (C183_memory_violated: with one, the error of the previous time step decides about a second one, and it is not in the files).  Files are written in one go, the problem restores its own state, exact numbers. |
| C184 | A simulation does not depend on how its work is divided between processes and threads | partial | C184_performs: the rows of own cells which a process assembles, whichever linearizer it uses and however its threads are scheduled, are those of the equations of the whole grid; hence everything which is proved of simulations on several processes (C162, C169, C181, C183) holds with threads.  C184_one: on one process with the whole grid.  C184_simulation_partial, C184_any_two, C184_balance_partial, C184_exists.  C184_cached_partial: with cached intensive quantities.  C184_continues_partial: restarts with another linearizer and other numbers of threads.  C184_constraints_partial: with constraints (without caches).  Missing: auxiliary equations, constraints together with caches, rounding errors. |
| C185 | Simulations of reservoirs on several processes: fluxes, derivatives and balances of components and energy | partial | C185_fluxes, C185_storage, C185_opposite, C185_residual: values, for any numbering.  C185_derivatives_partial: derivatives agree for any two numberings where no phase is in balance between two cells of the same volume; otherwise violated (C185_numbering_violated: the upstream cell is the one with the lower local index, so that Newton iterations depend on the numbering).  C185_simulation_partial: same simulation on several processes, if owners have neighbouring cells of the same volume in the same order as the single process.  C185_balance_partial: balances of components and energy, for any order.  C185_exists.  Missing: diffusion, dispersion and convective mixing, threshold pressures, calculatePhasePressureDiff_ which is not in this repository (taken from transfluxmodule.hh), rounding errors. |
| C186 | The constraints of a problem are collected completely, with any number of threads | partial | Proved for all runs of any number of threads without data races; there are none with one thread, or if at most one element has constraints. Violated in all other cases: threads insert into one std::map without a lock, so with two threads and two elements with constraints some schedule has a data race (undefined behaviour). |
| C187 | Mass conservative assignment keeps the contents of cells | partial | Proved for the immiscible, NCP, PVS and flash models, relative to contracts of the solvers of opm-material (the flash finds an equilibrium with the given amounts; compositions are determined by fugacities, or by fugacities and as many conditions as components), for states with the densities of the fluid system. Violated: without energy equation if the temperature is not the one of the problem (C187_temperature_violated), if the densities of the state are not those of the fluid system (C187_density_violated), for states wrongly said to be in equilibrium (C187_equilibrium_violated) and for the flash model with pressure and temperature, which stores no amounts (C187_ptflash_violated). The black-oil model (C187_blackoil_partial, amounts as volumes at the surface) without brine, solvents and the extended module; violated for oil and water without gas if gas dissolves in water (C187_blackoil_violated: the oil is lost). Not covered: the Richards model, and the energy equation of the NCP and PVS models. |
| C188 | A time step after failed attempts is the one with the last size | partial | C188_retry_partial, C188_prescribed: proved if whatever is constrained for a step is constrained for all smaller ones (for example if the set of constrained degrees of freedom does not depend on time).  C188_untouched: degrees of freedom which are never constrained, without conditions.  Violated for constraints which begin between the end of the step which is made and the end of a failed attempt (C188_violated), and if all attempts fail (C188_gave_up_violated), because constraints are also written into the solution of the previous time level.  The Newton method is a function of the time step size and both solutions; that it remembers errors of earlier calls is C183. |

## Findings

Properties which the code violates are kept at full strength in `properties.jsonl`; the model proves the negation
(`…_violated`, with a concrete witness) and the strongest partial statement found.  They are C06–C09, C11, C13, C16, C17, C19,
C21, C22, C29–C32, C35, C36, C39–C41, C43, C44, C47, C48, C51, C52 (with solvent), C54–C60, C62–C71, C76–C80, C82–C87, C89–C92,
C94, C96, C98, C100, C101, C104, C107–C114, C116–C118, C120–C140, C142, C143, C145, C146–C163, C165–C168, C171–C180, C182, C183, C185–C188; the remarks in the table above say what goes wrong.

Seen while reading, but not part of the model:

* `setVolumetricRate` of the immiscible, flash, PVS and Richards models calls `density(phaseIdx, compIdx)`, which fluid states do
  not have.
* `NcpModel::adaptGrid` resizes the minimum activity coefficients without setting the new ones.
* `parallelbasebackend.hh`: the border list creator is local to `prepare`, but the overlap keeps references to its lists.
* `foreignoverlapfrombcrsmatrix.hh`: for vertex-centred grids `addNonNeighborOverlapIndices_` compares local with native indices.
* `mpiutil.hh`: the packer for vectors cannot be instantiated (`size` takes a string, `pack` calls a function with one argument
  which takes three).
* `propertysystem.hh:218`: the assertion of `GetSplicePropImpl` compares with the empty tuple and never fails.
* All messages have the tag 0, so that messages of different kinds are only told apart by their order.
* `vcfvstencil.hh`: for pyramids (edges 0 and 3) and prisms (edges 4 and 7) the tables of faces would give normals from the exterior
  to the interior corner; elements of these kinds are rejected earlier.
* `vcfvstencil.hh`: `updateCenterGradients` passes a global position where `jacobianInverseTransposed` expects a local one.
* `pvsprimaryvariables.hh`: `explicitSaturationValue` lacks a `return` before `createConstant` for other time levels.
* `pvsmodel.hh`: copies of cells of other processes keep their old phases until the next iteration or time step.
* `forchheimerfluxmodule.hh`: the step of the difference quotient is about as large as the velocity for positive components (it is no
  derivative), and `gradResid` is the transposed Jacobian; a residual which is not a number ends the loop without an error.
* `ecfvstencil.hh`: `gridView()` and `partitionType()` cannot be instantiated; boundary faces have the exterior index 55536.
* `baseoutputmodule.hh`: `commitEqBuffer_` calls a function which does not exist; `fvbaseproblem.hh`: `defaultVtkWriter()` returns a
  pointer as a reference. Neither can be instantiated.
* `vtktensorfunction.hh` and `vtkmultiwriter.hh`: the first entry of a buffer is used for its size, also by processes with no entities.
- C135: the property `UseTwoPointGradients`, which the fracture model sets, is never read; the energy stored in the rock is not reduced by the volume of the fractures, and fluxes over the boundary of the domain ignore them.  The fracture model is two-dimensional in the code too (edges are faces of codimension one).
- C138: `FvBaseBoundaryContext::normal` indexes a member function and cannot be instantiated.
- C142: `addNonNeighborOverlapIndices_` is marked "this probably does not work"; it does if native and local indices of the
  non-black-listed vertices agree. If ghost vertices precede others, `localToPeerIdx_` is called with a local index and compares it
  with native ones, and the received native index is used as a local one: processes do not learn about overlaps, and masters differ.
- C143: `addAuxiliaryModule` does not erase the matrices, unlike `clearAuxiliaryModules`. If a module is added after the first
  iteration, its equations are written to rows and blocks which the matrix does not have. In `solve`, the guard which deletes the
  preconditioner is made after `preparePreconditioner_` has returned; if it throws because another process has failed, the
  preconditioner of this process is lost. If `prepare` fails after the matrix has been made, the next call takes the null vectors for
  prepared.
- C145: `waterViscosityCorrectionOutput_` reads `VtkWritePolymerViscosityCorrection`; the parameter
  `VtkWriteWaterViscosityCorrection` is registered and never read. The fields of phases which are not active are zero, except for
  the formation volume factors, for which the fluid system is asked even if the phase is not active.
- C146: the loop of art2dgf which removes trailing white space looks at the terminating zero first and so never removes anything; a
  line with a dollar sign and a blank (or a carriage return) behind it does not end the section. DGF files mark vertices, not edges:
  every edge between two vertices of fractures becomes a fracture. `DgfVanguard` registers fractures before it refines the grid, by
  indices of the coarsest level; afterwards no edge of the refined grid is one. (For three-dimensional grids no fracture is ever
  registered because edges never have three vertices.)
* `globalPhaseStorage` visits all degrees of freedom of each stencil instead of the primary ones; on cell-centred grids each cell is counted
  once more for every neighbour (C147), so that the amounts which `co2injection` and `obstacle` print per phase are too large by a factor of
  about five in two dimensions.
* C148: the parameter `PreconditionerOrder` is zero by default (linalgparameters.hh line 74), and the wrappers of the Jacobi, Gauss-Seidel, SOR and SSOR preconditioners pass it to Dune as the number of sweeps. Without a sweep the search direction stays zero, so the solver throws `NumericalProblem` in its first iteration for every system which is not solved by zero (`C148_order_violated`, for the Jacobi preconditioner).
* C149: `checkParallelException` reads `all_what.front()`, but `gatherStrings` leaves out empty strings; on one process an exception without a
  text leads to a read of an empty vector. Exceptions which are not derived from `std::exception`, and exceptions in front of a collective
  operation of the same step (for instance an element with a wrong number of faces in `FvBaseDiscretization::finishInit`, before the volumes are summed up),
  leave the other processes waiting.
* C150: the constructor of `FvBaseProblem` determines the bounding box for the first `dim` coordinates only; with a surface in space the others remain at
  the largest and the smallest number.
* C151: if between one and two steps are left, `nextTimeStepSize` takes 1.01 times half of what is left. This may be one percent more than
  `MaxTimeStepSize` and about half of `MinTimeStepSize`. A size imposed by `setNextTimeStepSize` is never reset, although it is documented as
  that of the next step. The first step of a simulation is not limited by `MaxTimeStepSize`.
* C152: `RichardsModel::primaryVarWeight` divides by the pressure of water at the first local cell, which is negative in dry soil; `BlackOilModel::primaryVarWeight` does not know the variables of the brine, foam and MICP modules (an assertion fails); `referencePressure_` stays unset on processes without local degrees of freedom, and `ImmiscibleModel::updateBegin`/`PvsModel::updateBegin` loop over `numTotalDof()` although the arrays have `numGridDof()` entries; `NcpModel::updatePVWeights` writes a shared array, which other threads may read while it holds 1e100.
* C153: `syncOverlap` does nothing for vertex-centred grids, so that vertices which only belong to ghost or overlap elements keep the value zero; the norm which `globalResidual` returns counts vertices on borders once per process and leaves out auxiliary equations.
* C154: `neighborInfo_` and the tables of flows are filled in the order of iteration but read by index; `updateFlowsInfo` loops to `numTotalDof()`, which includes auxiliary degrees of freedom, for which there is no row; `normVelocityCell_` is not initialised before the table of velocities exists, and afterwards holds velocities of the previous linearization, so that the residual with dispersion depends on the history; an entry refers to a non-neighbouring connection only in the direction in which it is listed; boundary faces are not stored for FLORES.
* C155: `effectiveProperties` of the solvent extension binds `rhoSolvent` as a reference to the member `solventDensity_`, overwrites the member and then uses the reference for the density of oil; with complete mixing of equal parts of oil (1) and solvent (1/2) the density of oil becomes 7/8 instead of 3/4 (`C155_oil_violated`).  If all fluids are below their critical saturations, the viscosity of the mixture is that of oil (or 1 if there is no oil phase) and its density is zero, so the density of the solvent may be halved (`C155_density_violated`) and its viscosity become 1 Pa s (`C155_viscosity_violated`).
* C156: `BlackOilBrineModule::initFromState` writes `permfactTable_[i]` for every PERMFACT table although the vector has one element per PVT region, and likewise PCFACT and saturation regions; densities are read from PVTWSALT at the index of BDENSITY (`C156_brine_violated`).  Vectors and flags of brine, solvent and polymer are static and not cleared: solubility of salt, `rsSolw_active_` and the maps of PLYMWINJ, SKPRWAT and SKPRPOLY of an earlier deck stay in force.  The number of regions for miscibility is fixed to one and only an assertion checks it.  The branch which uses PMISC for TLPMIXPA cannot be reached.  PLYSHLOG is said to have no effect with POLYMW, but `hasPlyshlog_` is set, so the shear factor is computed from vectors without an element.  PLMIXPAR is read at every index of PLYMAX.
* C157: the tables of `BlackOilExtboModule` are static and `resize` does not clear them, so a second deck appends its positions behind those of the first (`C157_again_violated`).  `zPvtUpdate_` overwrites the density of gas without the vaporized water (`C157_mass_violated`).  For fractions beyond the limit the bubble point is looked up for the limit, and in cells without oil the properties of gas are evaluated at the pressure of oil, so formation volume factors jump when the meaning of the switching variable changes (`C157_bubble_violated`, `C157_dew_violated`).  The compressibility of gas divides by the difference of two RV entries (`C157_gas_violated`).  `pbubRv` is never used.
* C158: `serializeOp` of the simulator leaves out the time step size, the end time and the finished flag (`C158_time_step_size_violated`); that of the discretization replaces the solutions but neither invalidates the cached intensive quantities nor the cached storage (`C158_cache_violated`); that of the black-oil primary variables and their comparison leave out `pcFactor_`, which is always assigned before it is used.
* C123: below the residual oil saturation of the mixture the fraction of gas and solvent exceeds one and the tables are extrapolated: the default ones give a negative relative permeability of oil (`C123_bounds_violated`).
* C159: a list of values printed by one run and given to another marks every parameter as set at run time, so that code which asks `IsSet` decides differently (`C159_given_violated`).
* C160: if a time step begins at a solution which already meets the tolerance, the Newton method makes one update and accepts the result without looking at its residual, so the balance of mass can be off by more than the tolerance (`C160_balance_violated`); with `ContinueOnConvergenceError` a failed step is accepted with the old solution while time goes on, so sources are lost (`C160_continue_violated`).
* C161: `syncOverlap` is only called at the beginning of Newton iterations, and the linear solver gives zero for copies. If the tolerance is met at the first linearization, the loop is left right after an update, and copies keep the values before it (`C161_stale`, `C161_stale_violated`); they are written to files and used by the problem until the next Newton method begins. Intensive quantities of copies which are cached then stay valid, `syncOverlap` does not make them invalid: `C161_newton_partial` needs that they are right at first.
* C163: times of convergence data are the number of the call of the Newton method plus a hundredth per iteration, so that iteration 101 of one call has the time of iteration 1 of the next (`C163_times_violated`); the written relative error is the one of the update before models limit it (`C163_limited_violated`).
* C166: the time step size is not part of the restart file, and neither is the flag that an episode is about to begin. A restarted simulation therefore uses the initial time step size (`C166_size_violated`) and does not call `beginEpisode` for an episode which was started before the file was written (`C166_episode_violated`); both change the solution at the end of the simulation.
* C151: time step sizes are only chosen after steps which do not end an episode, so the first step of an episode has the size of the last step of the previous one, which the end of the episode may have made very small, even if a size has been imposed with `setNextTimeStepSize` (`C151_imposed_violated`).
* C167: free-flow boundaries of the black-oil model take solvent, polymer, microbes, oxygen and urea from the cell, also for water which enters (`C167_entering_violated`); salt, foam and z fraction have no rate at all (`C167_salt_violated`); polymer is counted without the formation volume factor and the mixing rule (`C167_polymer_violated`); with gravity the content of the wrong side is used (`C167_gravity_violated`).
* C168: with `FixPointCriterion` the stabilized bi-conjugate gradient solver throws for systems without right-hand side (`C168_fixpoint_violated`), i.e. in every time step of a simulation in equilibrium; no solver of the repository uses this criterion.
* Element contexts keep the pointers to hints of all time levels when they go on to the next element.  `updateAllIntensiveQuantities` updates time level 0 first; the PT-flash model then looks at the hint for level 1, which still is the one of the element visited before (C171_foreign_violated).  Results of simulations with hints therefore depend on the order of visits, and on the number of threads.
* With `EnableThermodynamicHints` but without `EnableIntensiveQuantityCache`, quantities are stored but never given as hints, because `thermodynamicHint` asks `cachedIntensiveQuantities`, which looks at the parameter of the cache (C171_no_cache_violated).
* C172: `invalidateAndUpdateIntensiveQuantities(timeIdx, gridView)` invalidates entries of `timeIdx` but updates time index 0, and it skips elements which are not in the interior (their entries stay as they are, stale or not).
* C79: when solid salt appears, `adaptPrimaryVariables` sets its saturation to zero and the concentration of dissolved salt to the solubility, so that all salt above the solubility is lost (`C79_salt_violated`).
* C173: `BlackOilLocalResidualTPFA::calculateFluxes_` adds diffusive fluxes without looking at `FluidSystem::enableDiffusion()`. If `EnableDiffusion` is set at compile time and the deck has no DIFFUSE, the diffusion coefficients of the intensive quantities are never assigned, so that the fluxes depend on uninitialised memory (unless the problem's `diffusivity` happens to be zero). `BlackOilLocalResidual` checks the switch, but never adds dispersion and never multiplies by `rockCompTransMultiplier()`.
* The overlap of a process consists of cells of its neighbours which are a number of steps inside the neighbour's own cells; it does not go on to processes behind the neighbour. With three or more processes a cell can be two steps away and still not be in the overlap of any size; two sweeps of the Jacobi preconditioner then depend on the partition (`C148_sweeps_violated`). With two processes they do not (`C148_two`).
* C174: `adaptPrimaryVariables` evaluates the limit of solubility of the solvent with the raw pressure variable (which is scaled by `pressureScale_`, and is not the pressure of the water if there is capillary pressure) and with a salt concentration of zero unless salt precipitation is compiled in; the intensive quantities use the unscaled pressure of the water and the salt concentration of the fluid state. Dissolved solvent jumps when free solvent vanishes (`C174_scale_violated`, `C174_salt_violated`, `C174_capillary_violated`).
* C174: `solventPvtUpdate_` corrects `mobility_` only, not the directional mobilities (`C174_directional_violated`); with `BlackoilConserveSurfaceVolume` off the storage counts dissolved solvent with the density of the water times a ratio of surface volumes (`C174_mass_violated`).
* C175: with an overlap size of 0, which `LinearSolverOverlapSize` allows, the overlapping operator of a vertex-centred discretisation leaves out the columns which the master of a shared vertex does not know (`C175_apply_violated`).
* C176: `OverlappingBCRSMatrix::assignCopy` is documented to copy from the master, but `receiveCopyEntries_` overwrites entries with those of every peer, unlike `receiveFromMaster_` of the vectors; two processes sharing a vertex swap their entries (`C176_swap_violated`).
* C178: `PressureMin`/`PressureMax` are documented as limits of the pressure, but `updatePrimaryVariables_` applies them to the variable, which is the pressure divided by `PressureScale` (`C178_limits_violated`); `primaryVarWeight` of the pressure is not scaled either, which matters for finite differences only.
* C180: in `prepareOutputFields`, threads add to the buffers of `VtkMultiPhaseModule` without a lock, although faces of different elements belong to the same degree of freedom: velocities can get lost.  On several processes, faces between an own cell and a cell of another process are counted once, all others twice, so that velocities of cells at borders depend on the distribution.
* C182: `FvBaseNewtonMethod::beginIteration_` calls `syncOverlap`, which changes the solution at copies, without making their cached intensive quantities invalid; `update_` does that before. After a time step which needed one iteration only, copies are behind their owners, and entries which are stored for them before the next step (output, callbacks) are used in its first linearization (`C182_violated`).
* C183: `error_` and `lastError_` of the Newton method are not reset at the beginning of a time step and are not in the restart file; with `NewtonMaxIterations = 1` a restarted simulation can succeed where the uninterrupted one gives up (`C183_memory_violated`).  The name of a restart file has the time with the default precision of streams (six digits), so that files of different times can have the same name and the later one overwrites the earlier one.
* C185: where the pressures of a phase and the volumes of two cells are equal, the upstream cell is the one with the lower index on the process (opm/models/common/transfluxmodule.hh lines 264-303).  The flux is zero, but its derivatives are those of the chosen cell, so that the Newton iterates depend on how cells are numbered, and thus on the distribution of the grid (`C185_numbering_violated`).
* `updateConstraintsMap_` inserts into `constraintsMap_` from all threads without a lock (opm/models/discretization/common/fvbaselinearizer.hh line 500): a data race as soon as two elements have constraints (C186).
* C187: `assignMassConservative` of the immiscible, NCP and PVS models replaces the densities of the given state by those of the fluid system, the flash model does not; without energy equation the temperature of the state is dropped; the flash model with pressure and temperature stores no amounts at all.  `assignMassConservative` of the Richards model (opm/models/richards/richardsprimaryvariables.hh lines 154-174) names the template `ParameterCache` without arguments and passes the cache and the parameters of the material law in the opposite order: it would not compile if it were used.
* C188: `applyConstraintsToSolution_` writes constraints into the solution of the previous time level, too (opm/models/discretization/common/fvbaselinearizer.hh lines 630-645), which is what `updateFailed` restores the current one from.  Degrees of freedom which are constrained at the end of a failed attempt, but not at the end of the smaller step which succeeds, start from the prescribed values (`C188_violated`).
* `TpfaLinearizer` does not apply constraints at all: its `constraintsMap()` returns an empty map (opm/models/discretization/common/tpfalinearizer.hh lines 361-367), whatever `EnableConstraints` says, so that problems with constraints are simulated without them.  C184_constraints_partial is about `FvBaseLinearizer`.

## Axioms of each theorem

As reported by `#print axioms` (namespaces omitted).

* **no axioms**: C41_removed_violated, C69_clear_violated, C111_message_violated, C138_vertex_violated, C138_process_violated, C138_check_seen_violated, C158_time_step_size_violated.

* **propext**: C06_blank_and_comment_ignored, C06_malformed_line_rejected_violated, C07_wrapping_keeps_text_violated, C08_help_never_runs_violated, C08_failed_setup_never_runs, C22_missing_file_diverges_violated, C25_worker_continues, C40_tpfa_violated, C41_late_violated, C44_one_dof_partial, C44_intensive_quantities_partial, C55_extbo_brine_violated, C55_extbo_foam_violated, C58_truncated_violated, C60_printed_list_round_trip_violated, C64_polymer_violated, C64_meanings_violated, C70_other_coefficients_violated, C71_race_violated, C107_unique, C107_override_violated, C107_splice_order_violated, C110_rejects, C110_rejected_violated, C111_memory_violated, C111_message_partial, C111_message_fits, C112_allocate_violated, C133_race_violated, C133_restart_violated, C138_check_seen_partial, C140_fields, C140_fields_violated, C150_box_violated, C156_brine_again_violated, C156_miscnum_violated, C156_solvent_again_violated, C158_cache_partial, C171_no_cache_violated, C171_order_violated.

* **Quot.sound, propext**: C02_rejected_call_has_no_effect, C03_help_option_round_trip, C04_command_line_iff, C05_quoted_round_trip, C05_unterminated_is_error, C06_repeated_name_rejected, C06_wellformed_line_accepted_partial, C06_key_only_rejected_partial, C09_error_is_exact, C10_result_unique, C11_failed_partial, C11_handled, C11_begin, C12_auxiliary_updated, C12_update_keeps_constraints, C12_constraints_do_not_count, C12_unconstrained_updated, C13_undefined_update_rejected, C13_last_entry_nan_partial, C14_at_least_minimum, C16_accepted_solution_is_old, C17_clock, C17_integrated_size_partial, C18_bracketed, C20_clock_round_trip, C20_queries_agree, C22_reads_numbers_partial, C22_trailing_blank_violated, C22_malformed_diverges_violated, C22_malformed_end_violated, C22_empty_file_violated, C23_dispatched, C23_sync, C25_failure_flag, C25_failure_stays, C25_sync, C27_nothing_after_abort, C29_accounting_partial, C29_guard, C29_stop_value, C30_exactly_once_partial, C30_never_early_partial, C32_longer_history_violated, C33_disjoint, C36_general_partial, C36_tpfa_partial, C38_schedule_independent, C38_tpfa, C39_outside_partial, C40_general, C40_tpfa_partial, C41_current_partial, C42_restored, C46_success, C46_iterations, C54_report_twophase_violated, C54_compatible_partial, C55_polymer_micp_violated, C55_extbo_polymer_violated, C55_components, C57_update_presence, C58_wrong_cookie_rejected, C60_printed_list_round_trip_partial, C61_ended_stays, C62_runs_until_end_partial, C63_episodeWillBeOver, C65_continues_partial, C67_sync_partial, C68_storage_cache_transparent, C68_not_recycled, C69_solution_size_partial, C70_transmissibilities_partial, C71_one_thread_partial, C73_locked, C73_unlocked, C75_breakdown, C75_published, C81_wrapped_lines_fit, C84_transmissibility, C86_boundary_partial, C86_mass_factor, C87_one_way, C88_storage, C88_flux, C88_consistent, C89_blackoil_partial, C89_blackoil_molar_violated, C99_small_updates_exact, C100_non_wetting_violated, C108_gather_violated, C111_memory_partial, C112_natural, C113_get_violated, C120_extbo_opposite, C120_foam_opposite, C120_brine_opposite, C120_micp_opposite, C120_solvent_opposite_partial, C120_extbo_partial, C120_foam_partial, C120_micp_partial, C120_solvent_partial, C120_solvent_mass_partial, C120_uniform_salt_partial, C123_saturations, C123_pressure_immiscible, C123_pressure_miscible_partial, C127_storage, C127_insulated, C127_scaling_partial, C127_assign, C127_assign_violated, C127_restart_partial, C127_restart_violated, C128_units_partial, C128_added, C129_inactive, C129_episode, C129_density_partial, C129_salt_partial, C130_mobility, C130_correction_partial, C130_directional_violated, C130_solids, C130_rock_pressure, C132_primary_partial, C132_primary_violated, C133_names, C133_other, C133_restart_other, C134_values, C134_velocity_violated, C134_fracture_violated, C134_names_partial, C134_names_violated, C135_assign, C135_cache_partial, C138_cell, C138_vertex_partial, C139_coarsen, C140_flash, C140_blackoil_swapped_violated, C140_convergence, C143_module_violated, C143_leak_violated, C143_memory_violated, C144_setBlock, C144_clearRow, C144_pattern, C145_names, C146_rejected, C147_storage, C147_phase_partial, C147_total_partial, C147_processes, C148_two, C149_foreign_violated, C150_box_partial, C152_reference_pvs_partial, C152_threads_violated, C153_initial_vertices_partial, C153_initial_vertices_violated, C154_create, C154_keep, C154_order_violated, C154_auxiliary_violated, C154_velocity, C154_velocity_unset_violated, C156_keyword, C156_off, C156_foam, C156_foam_robust, C156_solvent_partial, C157_accepts, C157_bubble_partial, C157_dew_partial, C158_equality, C158_solution_equality, C159_help_complete, C167_flux, C167_leaving_partial, C167_salt_violated, C168_stationary, C168_zero_reduction, C170_again, C170_first, C171_foreign_violated, C172_whole_grid, C172_view_partial, C172_time_index_violated, C172_asked, C172_overlap_violated, C173_mixing, C174_directional_violated, C174_inert, C180_order, C180_distribution_partial, C180_gradient, C180_no_fracture, C186_collected_partial, C186_same_partial, C186_one_thread, C186_one_element, C188_untouched.

* **Classical.choice, Quot.sound, propext**: C01_precedence, C02_register_accepted_iff, C02_setDefault_accepted_iff, C02_hide_accepted_iff, C02_endRegistration_accepted_iff, C02_get_after_history, C04_command_line_values, C07_wrapping_keeps_text_partial, C08_help_partial, C09_success_partial, C09_success_small_residual_partial, C09_returned_solution_violated, C10_terminates, C10_terminates_always, C10_zero_tolerance_diverges, C11_other_exceptions_violated, C12_success_keeps_constraints, C12_linear_solve_zero_update, C13_undefined_never_succeeds_partial, C13_success_last_entry_defined_partial, C13_nan_accepted_violated, C14_reduction, C14_increase, C14_monotone, C14_after_failure, C15_attempts, C15_retries_at_least_minimum, C15_result_is_last_attempt, C16_continue_with_iterate_violated, C17_monotone, C17_integrated_size_violated, C18_last_episode_may_stay_open, C19_no_crossing_partial, C19_positive, C19_first_step_of_episode_violated, C20_twenty_digits_suffice, C21_distinct_names_violated, C21_names_partial, C21_short_times_partial, C22_blanks, C23_barrier, C23_never_more, C24_order, C26_not_early, C26_no_deadlock, C26_schedules_end, C26_completes, C27_handed_out_once_in_order, C27_loop_order, C27_at_most_once, C27_complete, C27_exceptions_are_not_lost, C27_loop_abort, C27_loop_ends, C28_sum, C28_max, C28_min, C28_ghostSync, C29_monotone, C29_restart_violated, C30_moved_from_violated, C31_current_level_partial, C31_previous_level_partial, C31_constraints_violated, C31_foreign_residual_violated, C31_after_foreign_residual_violated, C31_recycled_storage_violated, C32_advance_partial, C33_range, C34_cell_centred, C34_vertex_centred, C34_tpfa, C35_global_storage_partial, C35_recycled_storage_violated, C35_local_storage_violated, C36_auxiliary_violated, C37_general, C37_vertex_centred, C37_jacobian, C39_inside, C39_boundary_violated, C39_rows_violated, C42_affine, C42_quadratic_central, C42_quadratic_one_sided, C43_middle_partial, C43_between_partial, C43_violated, C44_two_dofs_violated, C45_inverse, C45_threshold, C45_invert, C46_combined, C46_reduction, C47_reduction, C47_combined, C47_fix_point, C47_weighted, C47_weighted_failed, C47_weighted_partial, C47_weighted_violated, C48_numbered, C48_terminates, C48_empty_overlap_violated, C49_dot, C50_round_trip, C50_own_rows, C50_border_sums, C50_sync, C50_consistent, C50_sync_again, C50_assignAddBorder, C50_terminates, C51_agreement_partial, C51_isolated_violated, C52_temperature, C52_solid_salt, C52_saturations_partial, C52_pressure, C52_pressure_positive, C52_pressure_unswitched, C52_water_factor, C52_gas_factor, C52_solvent_factor, C52_bounds, C52_salt, C52_solvent_bounds, C52_solvent_violated, C53_admissible, C53_unchanged, C53_idempotent, C54_report_partial, C54_report_brine_violated, C54_report_solvent_violated, C54_compatible_violated, C54_gas_stays_partial, C54_water_stays_partial, C54_stays_violated, C54_salt_stays, C55_threePhase_partial, C55_twoPhase_partial, C55_onePhase_partial, C56_reported, C56_partial, C56_violated, C56_zero, C57_saturations, C57_compositions, C57_composition_single, C57_update_pressure, C57_update_explicit_partial, C57_update_partial, C57_update_violated, C57_update_implicit_violated, C58_file_round_trip, C58_too_many_entities_rejected, C58_truncated_partial, C59_short_literals_partial, C59_defaults_read_back_violated, C61_run_ends, C62_runs_until_end_violated, C63_willBeFinished_partial, C63_willBeFinished_violated, C64_blackoil_round_trip_partial, C65_time_step_size_violated, C65_episode_violated, C66_destruction_completes, C66_no_crash, C66_double_unlock_violated, C67_zero_invocations_violated, C67_barrier_never_returns_violated, C68_changed_guess_violated, C69_enough_partial, C72_linearizers_agree, C74_slope, C74_exact, C74_symmetric, C75_orthogonal, C75_minimal, C76_initial, C76_zero_rhs, C76_half_step_partial, C76_violated, C77_blackoil_partial, C77_update_violated, C77_prepare_violated, C78_assign_read_partial, C78_assign_read_violated, C79_appear_continuously_partial, C79_appear_solvent_violated, C79_salt, C79_salt_bounds, C79_salt_violated, C80_equilibrium_stays_partial, C80_brine_violated, C82_darcy_partial, C82_darcy_violated, C82_upstream_agreed, C82_transmissibility, C82_tpfa, C83_darcy, C83_darcy_hydrostatic, C83_boundary_partial, C83_vertex_boundary_violated, C83_transmissibility, C83_tpfa, C84_darcy_law, C84_darcy_upstream_partial, C84_darcy_anisotropic_violated, C84_transmissibility_upstream, C85_free_flow_partial, C85_gravity_violated, C86_mass_violated, C86_equal_pressure_violated, C87_permitted_partial, C87_energy_violated, C87_countercurrent_violated, C89_ncp, C89_immiscible_partial, C89_immiscible_violated, C89_pvs_violated, C89_pvs_partial, C89_volumetric_violated, C89_blackoil_violated, C89_blackoil_molar_partial, C90_main_direction, C90_symmetric, C90_series, C90_boundary_violated, C90_boundary_partial, C91_saturations_late, C91_saturations_partial, C91_four_phases_violated, C91_pressure, C91_fugacities, C91_small_updates_exact, C91_other_variables, C92_first_iterations_partial, C92_two_phases, C92_last_phase_violated, C92_boundary_violated, C93_presence_iff, C93_presence_tolerance, C94_error_conservation_partial, C94_presence_violated, C95_round_trip, C95_compositions, C95_activity_coefficient, C96_pressure_and_range, C96_mole_fractions_partial, C96_four_components_violated, C96_small_updates_exact, C97_compositions, C97_saturations, C98_stored_partial, C98_absent_phase_violated, C99_saturation_change, C100_wetting_partial, C101_number_partial, C101_last_phase_partial, C101_number_violated, C101_front_not_refined_violated, C102_construct, C102_terminates, C103_coherent, C103_assign, C104_border_partial, C104_isolated_violated, C104_single_violated, C105_matrix, C105_terminates, C106_apply, C106_applyscaleadd, C107_first, C107_found, C107_own, C107_inherited, C107_override_partial, C108_gather_partial, C108_serial, C109_close, C109_clock_partial, C109_clock_violated, C110_count, C110_negative_violated, C112_powers, C112_allocate_partial, C113_get_partial, C114_switched_states, C114_fails_iff, C114_switched_iff, C114_count_partial, C114_count_violated, C114_agreement, C115_dof_round_trip, C115_section_round_trip, C116_column_partial, C116_hexahedron_violated, C116_parallelepiped, C116_line, C116_triangle, C116_quadrilateral, C116_concave_violated, C116_tetrahedron, C117_hexahedron_normals_partial, C117_hexahedron_outwards, C117_boundary_hexahedron, C117_quadrilateral_faces, C117_quadrilateral_closed, C117_triangle_faces, C117_triangle_closed, C117_boundary_plane, C117_tetrahedron_closed, C117_hexahedron_closed, C117_tetrahedron_normals_partial, C117_mirrored_violated, C117_tetrahedron_outwards, C117_boundary_tetrahedron, C118_corners, C118_center, C118_jacobian, C118_area, C118_volume, C118_cubes, C118_simplices, C118_tetrahedron, C118_triangle_partial, C118_triangle_violated, C119_interpolates, C119_value_exact, C119_jacobian, C119_gradient, C119_gradient_exact, C119_derivatives, C120_polymer_opposite, C120_brine_partial, C120_polymer_partial, C120_solvent_violated, C120_solvent_mass_violated, C120_extbo_violated, C120_floor_violated, C120_uniform_salt_violated, C120_vapour_violated, C121_outflow, C121_inflow, C121_at_rest, C121_opposite, C121_upstream_agreed_partial, C121_dissolved_violated, C121_permeability_violated, C122_densities_partial, C122_viscosities_partial, C122_immiscible, C122_complete_gas, C122_complete_solvent, C122_complete_oil_partial, C122_oil_density_violated, C122_immobile_violated, C123_no_solvent, C123_immiscible, C123_miscible, C123_pressure_violated, C123_pressure_water_violated, C123_bounds_partial, C123_bounds_violated, C123_residual, C124_water_viscosity_partial, C124_resistance, C124_mobility_partial, C124_polymer_slower_partial, C124_ends, C124_complete, C124_no_desorption, C124_mark_houwink, C124_above_maximum_violated, C125_solves_partial, C125_direction, C125_unsheared, C125_constant, C125_throws_violated, C125_face_partial, C125_face_violated, C126_gradient, C126_defined, C126_biomass, C126_oxygen, C126_calcite, C126_not_negative, C126_permeability_partial, C126_monotone_partial, C126_permeability_violated, C126_exponent_violated, C126_limits, C126_room_partial, C126_porosity_violated, C127_conduction_opposite, C127_flux_opposite, C127_series, C127_down, C127_boundary, C127_thermal_flow_violated, C127_mixing_violated, C127_boundary_area_violated, C128_opposite_partial, C128_exchange, C128_down, C128_formula, C128_region_violated, C128_two_vapours_violated, C128_units_violated, C129_level, C129_opposite, C129_sinks, C129_limited, C129_oil_violated, C129_salt_violated, C129_units_violated, C130_relperm_partial, C130_relperm_violated, C130_density, C130_porosity_partial, C130_porosity_violated, C131_solution, C131_slower, C131_equation, C131_close_partial, C131_still, C131_darcy, C131_tensor_partial, C131_tensor_violated, C131_downhill, C131_flux, C131_opposite, C131_boundary_partial, C131_upstream, C131_boundary_violated, C131_mirror_partial, C131_mirror_violated, C132_describes, C132_history, C132_primary_faces_partial, C132_direction, C132_conserved, C133_crash, C133_crash_async_partial, C133_final, C133_data, C133_distinct, C133_restart_partial, C134_velocity, C134_gradient_partial, C134_gradient_violated, C134_threads_violated, C134_fractions, C134_absent, C134_corner, C134_closest, C135_marked, C135_volume, C135_volume_partial, C135_boundary_violated, C135_storage, C135_storage_same, C135_room_partial, C135_room_violated, C135_saturations, C135_saturations_violated, C135_assign_violated, C135_flux, C135_flux_same, C135_opposite, C135_down, C135_upstream_partial, C135_upstream_violated, C135_permeability_partial, C135_permeability_violated, C135_cache_violated, C136_mass, C136_component, C136_face_value, C136_other, C136_values, C136_energy_partial, C136_energy_violated, C136_conduction_partial, C136_conduction_violated, C136_diffusion_partial, C136_diffusion_violated, C136_boundary_partial, C136_boundary_noFocus_partial, C136_boundary_violated, C136_same, C136_same_boundary, C137_opposite, C137_warm_to_cold, C137_dilute, C137_replace_partial, C137_replace_violated, C137_tortuosity, C137_absent_violated, C137_boundary_violated, C137_boundary_flow, C137_boundary_conduction, C138_check_vertex, C138_check_cell, C138_check_accepts, C138_extrusion_violated, C138_sign_violated, C138_equal, C139_refine, C139_roundtrip, C139_values, C139_part, C139_whole, C139_place_violated, C139_integral_refine, C139_integral_coarsen_partial, C139_integral_violated, C139_balance_violated, C140_immiscible, C140_immiscible_quantities, C140_pvs, C140_ptflash, C140_ncp, C140_base, C140_blackoil_partial, C140_blackoil_unnamed_violated, C140_blackoil_twice_violated, C140_blackoil_two_phases_violated, C141_index_set, C141_one_owner, C142_foreign, C142_construct, C142_terminates, C142_coherent, C142_assign, C142_add, C142_ghost_violated, C143_fits_partial, C143_defined_partial, C143_freed_partial, C143_reuse, C144_sum, C145_written_partial, C145_values, C145_ratio, C145_switch_violated, C146_geometry_partial, C146_fractures_partial, C146_which, C146_refined_violated, C146_fractures_violated, C146_separator_violated, C147_cells_violated, C147_twice_violated, C148_solve_partial, C148_exists, C148_order_violated, C148_thin, C148_sweeps_violated, C149_agree_partial, C149_silent_violated, C149_missed_violated, C150_volume, C150_total, C150_local, C151_no_tiny_rest, C151_maximum_partial, C151_maximum_violated, C151_minimum_partial, C151_minimum_violated, C151_run_partial, C151_run_no_tiny_rest, C151_imposed_partial, C151_imposed_violated, C152_immiscible, C152_pvs, C152_pvs_variables, C152_ncp, C152_flash, C152_default, C152_epsilon, C152_reference_partial, C152_reference_violated, C152_richards_violated, C152_richards_partial, C152_blackoil_partial, C152_blackoil_violated, C153_initial_cells, C153_residual, C153_norm, C153_norm_cells, C153_norm_bounds_partial, C153_norm_violated, C153_auxiliary_violated, C154_update, C154_run, C154_residual, C154_opposite, C155_density_partial, C155_viscosity_partial, C155_unchanged, C155_complete_partial, C155_oil_violated, C155_density_violated, C155_viscosity_violated, C156_brine_partial, C156_brine_violated, C156_polymer_partial, C156_shear, C156_shear_violated, C156_maps_partial, C156_polymer_violated, C156_maps_violated, C157_tables_partial, C157_again_violated, C157_ascending, C157_oil_compressibility, C157_mass_partial, C157_density, C157_mass_violated, C157_bubble_violated, C157_dew_violated, C157_gas_violated, C158_primary_variables, C158_solution, C158_model, C158_simulator_partial, C158_cache_violated, C159_values_partial, C159_same_run_partial, C159_given_violated, C159_unused, C159_no_unused, C159_help_entry, C160_balance_partial, C160_balance_violated, C160_continue_violated, C161_newton_partial, C161_copies, C161_stale, C161_constraints, C161_distributions, C161_exists, C161_stale_violated, C162_simulation_partial, C162_agree, C162_distributions, C162_exists, C162_tie_partial, C162_constraints_partial, C162_constraints_agree, C162_constraints_values, C162_constraints_none, C162_constraints_exists, C163_error_partial, C163_normalized, C163_limited_violated, C163_times_partial, C163_times_violated, C164_threads, C164_balance_partial, C164_exists, C165_blackoil_partial, C165_blackoil_defined, C165_flash, C165_flash_defined, C165_ncp, C165_projection_violated, C166_file, C166_continues_partial, C166_size_violated, C166_episode_violated, C167_hydrostatic, C167_direction, C167_components_partial, C167_gravity_violated, C167_entering_violated, C167_polymer_violated, C168_first_attempt, C168_hydrostatic, C168_constant_density, C168_rest, C168_zero_combined, C168_fixpoint_violated, C169_balance_partial, C169_amount, C170_stored, C170_flux, C170_round_trip_partial, C171_own_partial, C171_off_partial, C171_storage_cache_partial, C171_pointer_partial, C173_same_partial, C173_opposite_partial, C173_multiplier, C173_multiplier_violated, C173_dispersion_violated, C173_deck_violated, C173_boundary, C174_switch_partial, C174_bounds_partial, C174_scale_violated, C174_salt_violated, C174_capillary_violated, C174_density_partial, C174_mass_violated, C174_mobility_partial, C175_matrix, C175_terminates, C175_apply_partial, C175_applyscaleadd_partial, C175_apply_violated, C176_copy_partial, C176_swap_violated, C177_solve_partial, C177_exists, C177_order_violated, C178_read, C178_assign, C178_switch_partial, C178_iteration_partial, C178_iterations_partial, C178_limits_violated, C178_solvent_violated, C179_solve_partial, C179_exists, C179_order_violated, C180_distribution_violated, C180_threads_partial, C180_threads_violated, C180_fracture_partial, C180_fracture_violated, C181_stays, C181_first_attempt, C182_cached_partial, C182_violated, C183_names, C183_rejected, C183_files, C183_none, C183_continues_partial, C183_memory_violated, C184_performs, C184_one, C184_simulation_partial, C184_any_two, C184_balance_partial, C184_exists, C184_cached_partial, C184_continues_partial, C184_constraints_partial, C185_numbering_violated, C185_exists, C185_fluxes, C185_storage, C185_opposite, C185_residual, C185_derivatives_partial, C185_simulation_partial, C185_balance_partial, C186_race_violated, C187_blackoil_equilibrium, C187_blackoil_partial, C187_blackoil_violated, C187_immiscible_partial, C187_immiscible_equilibrium, C187_ncp_partial, C187_ncp_equilibrium, C187_flash, C187_temperature_violated, C187_density_violated, C187_equilibrium_violated, C187_ptflash_violated, C187_pvs_partial, C187_pvs_equilibrium, C188_retry_partial, C188_prescribed, C188_violated, C188_gave_up_violated.

## Sources

Lines of each file which definitions of the model cite, and the topics (directories of `lean/Verif`) which cite it.  Headers, includes, comments and type aliases are never cited, so that a file which is modelled completely shows about half of its lines.  Files without a topic are not modelled.

| file | lines cited | of | topics |
|---|---|---|---|
| opm/models/blackoil/blackoilboundaryratevector.hh | 111 | 280 | Extend, Flux |
| opm/models/blackoil/blackoilbrinemodules.hh | 35 | 567 | BlackOil, Decks, Extend |
| opm/models/blackoil/blackoilbrineparams.hh | 1 | 52 | Decks |
| opm/models/blackoil/blackoilconvectivemixingmodule.hh | 24 | 387 | Extend, Flux |
| opm/models/blackoil/blackoildarcyfluxmodule.hh | 0 | 100 |  |
| opm/models/blackoil/blackoildiffusionmodule.hh | 9 | 631 | Extend, Flux |
| opm/models/blackoil/blackoildispersionmodule.hh | 6 | 549 | Extend, Flows |
| opm/models/blackoil/blackoilenergymodules.hh | 102 | 727 | BlackOil, Extend, Names, Reservoir, Restart, Weights |
| opm/models/blackoil/blackoilextbomodules.hh | 109 | 836 | Extend, Names, Pvtsol, Restart, Weights |
| opm/models/blackoil/blackoilextboparams.hh | 1 | 68 | Pvtsol |
| opm/models/blackoil/blackoilextensivequantities.hh | 0 | 111 |  |
| opm/models/blackoil/blackoilfoammodules.hh | 5 | 616 | Decks, Extend |
| opm/models/blackoil/blackoilfoamparams.hh | 1 | 87 | Decks |
| opm/models/blackoil/blackoilindices.hh | 202 | 241 | BlackOil, Flux, Weights |
| opm/models/blackoil/blackoilintensivequantities.hh | 216 | 633 | BlackOil, Extend, Pvtsol, Reservoir |
| opm/models/blackoil/blackoillocalresidual.hh | 202 | 372 | Extend, Flux, Names |
| opm/models/blackoil/blackoillocalresidualtpfa.hh | 493 | 866 | Extend, Flux, Reservoir |
| opm/models/blackoil/blackoilmicpmodules.hh | 9 | 596 | Extend |
| opm/models/blackoil/blackoilmicpparams.hh | 1 | 60 | Extend |
| opm/models/blackoil/blackoilmodel.hh | 74 | 628 | Names, Restart, Weights |
| opm/models/blackoil/blackoilnewtonmethod.hh | 267 | 452 | Agree, BlackOil, Bounds, Extend |
| opm/models/blackoil/blackoilnewtonmethodparameters.hh | 0 | 67 |  |
| opm/models/blackoil/blackoilonephaseindices.hh | 206 | 256 | BlackOil |
| opm/models/blackoil/blackoilpolymermodules.hh | 50 | 1139 | Decks, Extend, Names, Restart, Weights |
| opm/models/blackoil/blackoilpolymerparams.hh | 1 | 135 | Decks |
| opm/models/blackoil/blackoilprimaryvariables.hh | 635 | 1153 | BlackOil, MassCons, Pack, Restart |
| opm/models/blackoil/blackoilproblem.hh | 0 | 194 |  |
| opm/models/blackoil/blackoilproperties.hh | 0 | 96 |  |
| opm/models/blackoil/blackoilratevector.hh | 88 | 203 | Flux |
| opm/models/blackoil/blackoilsolventmodules.hh | 134 | 1579 | BlackOil, Decks, Extend, Names, Restart, Todd, Weights |
| opm/models/blackoil/blackoilsolventparams.hh | 1 | 107 | Decks |
| opm/models/blackoil/blackoiltwophaseindices.hh | 231 | 275 | BlackOil |
| opm/models/common/darcyfluxmodule.hh | 306 | 560 | Deriv, Flux, Forch, Fracture |
| opm/models/common/diffusionmodule.hh | 5 | 490 | Deriv, Exchange |
| opm/models/common/directionalmobility.hh | 1 | 68 | Extend |
| opm/models/common/energymodule.hh | 81 | 848 | Deriv, Exchange, Flux, MassCons, Names, Storage, Weights |
| opm/models/common/flux.hh | 0 | 35 |  |
| opm/models/common/forchheimerfluxmodule.hh | 18 | 577 | Forch |
| opm/models/common/multiphasebaseextensivequantities.hh | 0 | 176 |  |
| opm/models/common/multiphasebasemodel.hh | 2 | 269 | Storage |
| opm/models/common/multiphasebaseparameters.hh | 0 | 40 |  |
| opm/models/common/multiphasebaseproblem.hh | 65 | 409 | Adapt, Flux |
| opm/models/common/multiphasebaseproperties.hh | 0 | 89 |  |
| opm/models/common/quantitycallbacks.hh | 0 | 482 |  |
| opm/models/common/transfluxmodule.hh | 276 | 511 | Flux, Reservoir |
| opm/models/discretefracture/discretefractureextensivequantities.hh | 2 | 138 | Fracture |
| opm/models/discretefracture/discretefractureintensivequantities.hh | 29 | 244 | Fracture |
| opm/models/discretefracture/discretefracturelocalresidual.hh | 2 | 159 | Fracture |
| opm/models/discretefracture/discretefracturemodel.hh | 1 | 166 | Fracture |
| opm/models/discretefracture/discretefractureprimaryvariables.hh | 1 | 124 | Fracture |
| opm/models/discretefracture/discretefractureproblem.hh | 1 | 139 | Fracture |
| opm/models/discretefracture/discretefractureproperties.hh | 0 | 44 |  |
| opm/models/discretefracture/fracturemapper.hh | 5 | 108 | Fracture |
| opm/models/discretization/common/baseauxiliarymodule.hh | 2 | 130 | AuxModules |
| opm/models/discretization/common/fvbaseadlocallinearizer.hh | 43 | 307 | BlackOil, FvLin |
| opm/models/discretization/common/fvbaseboundarycontext.hh | 3 | 274 | Boundary |
| opm/models/discretization/common/fvbaseconstraints.hh | 0 | 80 |  |
| opm/models/discretization/common/fvbaseconstraintscontext.hh | 0 | 118 |  |
| opm/models/discretization/common/fvbasediscretization.hh | 329 | 1985 | AuxModules, Balance, Boundary, Cache, Convergence, Hints, Initial, Names, Pack, ParBalance, ParCache, ParSim, Restart, RestartSim, Retry, Solver, Storage, ThreadSim, TimeInt, Volumes, Vtk, Weights |
| opm/models/discretization/common/fvbasediscretizationfemadapt.hh | 1 | 174 | Solver |
| opm/models/discretization/common/fvbaseelementcontext.hh | 87 | 607 | Cache, ElemCtx, Flux, Hints, ParCache |
| opm/models/discretization/common/fvbaseextensivequantities.hh | 0 | 135 |  |
| opm/models/discretization/common/fvbasefdlocallinearizer.hh | 4 | 523 | ElemCtx, Weights |
| opm/models/discretization/common/fvbasegradientcalculator.hh | 90 | 356 | Deriv, Flux, Fracture, Gradient |
| opm/models/discretization/common/fvbaseintensivequantities.hh | 0 | 96 |  |
| opm/models/discretization/common/fvbaselinearizer.hh | 242 | 714 | Agree, Cache, ConstraintMap, EntityIter, FvLin, Hybrid, Newton, ParNewton, ParSim, Retry, Solver, ThreadSim |
| opm/models/discretization/common/fvbaselocalresidual.hh | 26 | 641 | Boundary, Fracture, FvLin, Storage |
| opm/models/discretization/common/fvbasenewtonconvergencewriter.hh | 6 | 159 | Convergence |
| opm/models/discretization/common/fvbasenewtonmethod.hh | 24 | 171 | BlackOil, Cache, ParCache, ParNewton |
| opm/models/discretization/common/fvbaseparameters.hh | 0 | 132 |  |
| opm/models/discretization/common/fvbaseprimaryvariables.hh | 0 | 176 |  |
| opm/models/discretization/common/fvbaseproblem.hh | 59 | 839 | Balance, ParSim, Retry, StepSize, ThreadSim, TimeInt, Volumes, Vtk |
| opm/models/discretization/common/fvbaseproperties.hh | 0 | 265 |  |
| opm/models/discretization/common/linearizationtype.hh | 0 | 44 |  |
| opm/models/discretization/common/restrictprolong.hh | 3 | 203 | Transfer |
| opm/models/discretization/common/tpfalinearizer.hh | 168 | 955 | Agree, Balance, Flows, Hybrid, Reservoir, ThreadSim, Tpfa, TpfaLife |
| opm/models/discretization/ecfv/ecfvbaseoutputmodule.hh | 0 | 81 |  |
| opm/models/discretization/ecfv/ecfvdiscretization.hh | 6 | 237 | Hybrid, Initial, ParCache, ParNewton, ParRestart, Restart, RestartSim |
| opm/models/discretization/ecfv/ecfvgridcommhandlefactory.hh | 0 | 88 |  |
| opm/models/discretization/ecfv/ecfvproperties.hh | 0 | 46 |  |
| opm/models/discretization/ecfv/ecfvstencil.hh | 25 | 432 | Boundary, Ecfv, Hybrid, Storage |
| opm/models/discretization/vcfv/p1fegradientcalculator.hh | 3 | 357 | Vcfv |
| opm/models/discretization/vcfv/vcfvbaseoutputmodule.hh | 0 | 85 |  |
| opm/models/discretization/vcfv/vcfvdiscretization.hh | 1 | 221 | Fracture |
| opm/models/discretization/vcfv/vcfvgridcommhandlefactory.hh | 0 | 91 |  |
| opm/models/discretization/vcfv/vcfvproperties.hh | 0 | 51 |  |
| opm/models/discretization/vcfv/vcfvstencil.hh | 6 | 1390 | Boundary, Vcfv |
| opm/models/flash/flashboundaryratevector.hh | 102 | 203 | Exchange, Flux |
| opm/models/flash/flashextensivequantities.hh | 0 | 94 |  |
| opm/models/flash/flashindices.hh | 2 | 71 | Names |
| opm/models/flash/flashintensivequantities.hh | 2 | 218 | Hints, MassCons |
| opm/models/flash/flashlocalresidual.hh | 22 | 197 | Deriv, Storage |
| opm/models/flash/flashmodel.hh | 21 | 329 | Names, Weights |
| opm/models/flash/flashparameters.hh | 0 | 42 |  |
| opm/models/flash/flashprimaryvariables.hh | 1 | 148 | MassCons |
| opm/models/flash/flashproperties.hh | 0 | 43 |  |
| opm/models/flash/flashratevector.hh | 21 | 142 | Flux |
| opm/models/immiscible/immiscibleboundaryratevector.hh | 87 | 218 | Deriv, Flux |
| opm/models/immiscible/immiscibleextensivequantities.hh | 0 | 97 |  |
| opm/models/immiscible/immiscibleindices.hh | 2 | 69 | MassCons, Names |
| opm/models/immiscible/immiscibleintensivequantities.hh | 3 | 199 | Fracture, MassCons |
| opm/models/immiscible/immisciblelocalresidual.hh | 28 | 199 | Deriv, Flux, Storage |
| opm/models/immiscible/immisciblemodel.hh | 5 | 370 | Names, Weights |
| opm/models/immiscible/immiscibleprimaryvariables.hh | 5 | 214 | Fracture, MassCons, Names |
| opm/models/immiscible/immiscibleproperties.hh | 0 | 53 |  |
| opm/models/immiscible/immiscibleratevector.hh | 19 | 181 | Flux |
| opm/models/io/baseoutputmodule.hh | 4 | 439 | Names, Vtk |
| opm/models/io/baseoutputwriter.hh | 0 | 106 |  |
| opm/models/io/basevanguard.hh | 1 | 152 | Solver |
| opm/models/io/cubegridvanguard.hh | 0 | 145 |  |
| opm/models/io/dgfvanguard.hh | 2 | 192 | Art |
| opm/models/io/restart.hh | 127 | 275 | Numbers, ParRestart, Restart |
| opm/models/io/simplexvanguard.hh | 0 | 140 |  |
| opm/models/io/structuredgridvanguard.hh | 0 | 194 |  |
| opm/models/io/unstructuredgridvanguard.hh | 0 | 107 |  |
| opm/models/io/vtkblackoilenergymodule.hh | 9 | 226 | Vtk |
| opm/models/io/vtkblackoilmicpmodule.hh | 8 | 242 | Vtk |
| opm/models/io/vtkblackoilmodule.hh | 16 | 392 | Vtk |
| opm/models/io/vtkblackoilpolymermodule.hh | 9 | 268 | Vtk |
| opm/models/io/vtkblackoilsolventmodule.hh | 8 | 243 | Vtk |
| opm/models/io/vtkcompositionmodule.hh | 1 | 284 | Vtk |
| opm/models/io/vtkdiffusionmodule.hh | 0 | 194 |  |
| opm/models/io/vtkdiscretefracturemodule.hh | 4 | 350 | Vtk |
| opm/models/io/vtkenergymodule.hh | 0 | 210 |  |
| opm/models/io/vtkmultiphasemodule.hh | 7 | 469 | Vtk |
| opm/models/io/vtkmultiwriter.hh | 9 | 570 | Vtk |
| opm/models/io/vtkphasepresencemodule.hh | 0 | 136 |  |
| opm/models/io/vtkprimaryvarsmodule.hh | 1 | 177 | Names |
| opm/models/io/vtkptflashmodule.hh | 0 | 169 |  |
| opm/models/io/vtkscalarfunction.hh | 7 | 123 | Vtk |
| opm/models/io/vtktemperaturemodule.hh | 0 | 142 |  |
| opm/models/io/vtktensorfunction.hh | 0 | 125 |  |
| opm/models/io/vtkvectorfunction.hh | 0 | 123 |  |
| opm/models/ncp/ncpboundaryratevector.hh | 97 | 203 | Exchange, Flux |
| opm/models/ncp/ncpextensivequantities.hh | 0 | 91 |  |
| opm/models/ncp/ncpindices.hh | 12 | 104 | Names, Ncp |
| opm/models/ncp/ncpintensivequantities.hh | 17 | 245 | Hints, MassCons, Ncp |
| opm/models/ncp/ncplocalresidual.hh | 90 | 261 | Deriv, Flux, Ncp, Storage |
| opm/models/ncp/ncpmodel.hh | 20 | 481 | Names, Ncp, Weights |
| opm/models/ncp/ncpnewtonmethod.hh | 114 | 219 | Bounds, Ncp |
| opm/models/ncp/ncpprimaryvariables.hh | 43 | 192 | MassCons, Ncp |
| opm/models/ncp/ncpproperties.hh | 0 | 57 |  |
| opm/models/ncp/ncpratevector.hh | 21 | 151 | Flux |
| opm/models/nonlinear/newtonmethod.hh | 454 | 881 | Agree, Balance, BlackOil, Convergence, Newton, ParNewton, ParRestart, ParSim, Solver, ThreadSim |
| opm/models/nonlinear/newtonmethodparameters.hh | 0 | 64 |  |
| opm/models/nonlinear/newtonmethodproperties.hh | 0 | 49 |  |
| opm/models/nonlinear/nullconvergencewriter.hh | 0 | 108 |  |
| opm/models/parallel/gridcommhandles.hh | 55 | 284 | GridComm |
| opm/models/parallel/mpibuffer.hh | 191 | 238 | Buffers, Mpi |
| opm/models/parallel/mpiutil.hh | 90 | 211 | MpiUtil, Setup |
| opm/models/parallel/tasklets.hh | 139 | 369 | Tasklets, Vtk |
| opm/models/parallel/threadedentityiterator.hh | 15 | 99 | ConstraintMap, EntityIter |
| opm/models/parallel/threadmanager.hh | 94 | 141 | Threads |
| opm/models/ptflash/flashindices.hh | 27 | 73 | Names, PtFlash |
| opm/models/ptflash/flashintensivequantities.hh | 26 | 328 | Hints, PtFlash |
| opm/models/ptflash/flashlocalresidual.hh | 3 | 197 | PtFlash, Storage |
| opm/models/ptflash/flashmodel.hh | 2 | 300 | Names |
| opm/models/ptflash/flashnewtonmethod.hh | 53 | 137 | Bounds, PtFlash |
| opm/models/ptflash/flashparameters.hh | 0 | 45 |  |
| opm/models/ptflash/flashprimaryvariables.hh | 27 | 160 | MassCons, PtFlash |
| opm/models/pvs/pvsboundaryratevector.hh | 99 | 204 | Exchange, Flux |
| opm/models/pvs/pvsextensivequantities.hh | 0 | 94 |  |
| opm/models/pvs/pvsindices.hh | 14 | 73 | Names, Pvs |
| opm/models/pvs/pvsintensivequantities.hh | 56 | 297 | MassCons, Pvs |
| opm/models/pvs/pvslocalresidual.hh | 3 | 200 | Deriv, Storage |
| opm/models/pvs/pvsmodel.hh | 89 | 636 | Names, PvsSwitch, Weights |
| opm/models/pvs/pvsnewtonmethod.hh | 49 | 138 | Pvs, PvsSwitch |
| opm/models/pvs/pvsprimaryvariables.hh | 102 | 379 | MassCons, Pvs |
| opm/models/pvs/pvsproperties.hh | 0 | 55 |  |
| opm/models/pvs/pvsratevector.hh | 20 | 148 | Flux |
| opm/models/richards/richardsboundaryratevector.hh | 66 | 165 | Flux |
| opm/models/richards/richardsextensivequantities.hh | 0 | 52 |  |
| opm/models/richards/richardsindices.hh | 0 | 52 |  |
| opm/models/richards/richardsintensivequantities.hh | 24 | 199 | Richards |
| opm/models/richards/richardslocalresidual.hh | 0 | 111 |  |
| opm/models/richards/richardsmodel.hh | 4 | 388 | Names, Weights |
| opm/models/richards/richardsnewtonmethod.hh | 78 | 158 | Richards |
| opm/models/richards/richardsprimaryvariables.hh | 54 | 192 | Richards |
| opm/models/richards/richardsproperties.hh | 0 | 67 |  |
| opm/models/richards/richardsratevector.hh | 17 | 146 | Flux |
| opm/models/utils/alignedallocator.hh | 59 | 226 | Aligned |
| opm/models/utils/basicparameters.hh | 0 | 83 |  |
| opm/models/utils/basicproperties.hh | 0 | 180 |  |
| opm/models/utils/genericguard.hh | 4 | 93 | Guard |
| opm/models/utils/parametersystem.hh | 576 | 1072 | Params |
| opm/models/utils/pffgridvector.hh | 79 | 129 | Pff |
| opm/models/utils/prefetch.hh | 0 | 54 |  |
| opm/models/utils/propertysystem.hh | 145 | 250 | PropSys |
| opm/models/utils/quadraturegeometries.hh | 6 | 154 | Vcfv |
| opm/models/utils/signum.hh | 0 | 45 | BlackOil |
| opm/models/utils/simulator.hh | 351 | 1014 | ForcedSteps, HumanTime, Pack, ParRestart, Restart, RestartSim, Setup, TimeLoop |
| opm/models/utils/start.hh | 235 | 414 | Params |
| opm/models/utils/timer.hh | 27 | 217 | Timer |
| opm/models/utils/timerguard.hh | 1 | 58 | Timer |
| opm/simulators/linalg/bicgstabsolver.hh | 244 | 356 | Agree, Krylov |
| opm/simulators/linalg/blacklist.hh | 81 | 186 | Overlap, OverlapMatrix |
| opm/simulators/linalg/combinedcriterion.hh | 188 | 242 | Criteria, ParSolve |
| opm/simulators/linalg/convergencecriterion.hh | 86 | 154 | Criteria |
| opm/simulators/linalg/domesticoverlapfrombcrsmatrix.hh | 241 | 583 | Amg, Overlap, ScalarProduct, Sync |
| opm/simulators/linalg/elementborderlistfromgrid.hh | 98 | 263 | GlobalIdx, Overlap |
| opm/simulators/linalg/fixpointcriterion.hh | 129 | 185 | Criteria |
| opm/simulators/linalg/foreignoverlapfrombcrsmatrix.hh | 395 | 710 | Amg, GlobalIdx, Overlap, ScalarProduct |
| opm/simulators/linalg/globalindices.hh | 184 | 349 | GlobalIdx, Mpi, Overlap |
| opm/simulators/linalg/ilufirstelement.hh | 0 | 41 |  |
| opm/simulators/linalg/istlpreconditionerwrappers.hh | 4 | 195 | ParSolve, Solver |
| opm/simulators/linalg/istlsolverwrappers.hh | 0 | 166 | Solver |
| opm/simulators/linalg/istlsparsematrixadapter.hh | 9 | 201 | ParSim, Solver |
| opm/simulators/linalg/linalgparameters.hh | 1 | 82 | ParSolve |
| opm/simulators/linalg/linalgproperties.hh | 0 | 76 |  |
| opm/simulators/linalg/linearsolverreport.hh | 37 | 83 | Krylov |
| opm/simulators/linalg/matrixblock.hh | 183 | 320 | Agree, Inverse |
| opm/simulators/linalg/nullborderlistmanager.hh | 0 | 64 |  |
| opm/simulators/linalg/overlappingbcrsmatrix.hh | 360 | 692 | OverlapMatrix, ParSolve |
| opm/simulators/linalg/overlappingblockvector.hh | 189 | 362 | ParSolve, Sync |
| opm/simulators/linalg/overlappingoperator.hh | 13 | 86 | OverlapMatrix, ParSolve |
| opm/simulators/linalg/overlappingpreconditioner.hh | 118 | 188 | Agree, ParSolve |
| opm/simulators/linalg/overlappingscalarproduct.hh | 13 | 83 | ParSolve, ScalarProduct |
| opm/simulators/linalg/overlaptypes.hh | 59 | 192 | GlobalIdx, Overlap |
| opm/simulators/linalg/parallelamgbackend.hh | 1 | 330 | Amg |
| opm/simulators/linalg/parallelbasebackend.hh | 106 | 447 | Agree, OverlapMatrix, ParNewton, ParSolve, Solver |
| opm/simulators/linalg/parallelbicgstabbackend.hh | 39 | 176 | ParSolve |
| opm/simulators/linalg/parallelistlbackend.hh | 0 | 161 |  |
| opm/simulators/linalg/residreductioncriterion.hh | 99 | 150 | Criteria |
| opm/simulators/linalg/superlubackend.hh | 0 | 191 |  |
| opm/simulators/linalg/vertexborderlistfromgrid.hh | 61 | 136 | GlobalIdx, Overlap |
| opm/simulators/linalg/weightedresidreductioncriterion.hh | 264 | 320 | Criteria |
