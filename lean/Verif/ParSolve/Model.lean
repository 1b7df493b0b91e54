import Verif.Krylov.Model
import Verif.OverlapMatrix.Props
import Verif.ScalarProduct.Model

/-
The parallel linear solver as a whole: what the BiCGStab solver gets from the overlapping operator, preconditioner, scalar
product, criterion and right hand side of all processes.

Models `setResidual`, `solve` and `preparePreconditioner_` of `ParallelBaseBackend` (opm/simulators/linalg/parallelbasebackend.hh lines
218-283), `prepareSolver_` and `runSolver_` of `ParallelBiCGStabSolverBackend` (opm/simulators/linalg/parallelbicgstabbackend.hh lines
130-168), `OverlappingPreconditioner` (opm/simulators/linalg/overlappingpreconditioner.hh lines 60-179) and the wrapper of the Jacobi
preconditioner (opm/simulators/linalg/istlpreconditionerwrappers.hh lines 60-99, 140).

Simplifications: numbers are elements of an ordered field and blocks are scalars.  The solver calls its parts one after the
other; the messages of one call do not mix with those of the next (see `Settles.append` for why they would not matter).  The
reductions by which the processes agree on exceptions of the preconditioner are the subject of `Verif.Agree`.  `Dune::SeqJac` is not
part of the repository: its `apply` is taken to be a number of sweeps of the damped Jacobi method over all rows of the matrix
of the process, as its documentation says, and its `pre` and `post` do nothing.
-/

set_option autoImplicit false

namespace Verif.ParSolve

open Verif.Mpi Verif.Sync Verif.Overlap Verif.OverlapMatrix Verif.Criteria

variable {P : ℕ} {K : Type} [Field K]

/-- The numbers of domestic indices of all processes: sizes of the vectors -/
abbrev sizes (o : Fin (P + 1) → Sync.Overlap (P + 1)) (p : Fin (P + 1)) : ℕ := (o p).numDomestic

/-- The entries of a distributed vector on the process `p` -/
def part (o : Fin (P + 1) → Sync.Overlap (P + 1)) (x : Vec P (sizes o) K) (p : Fin (P + 1)) (i : ℕ) : K :=
  if h : i < (o p).numDomestic then x ⟨p, ⟨i, h⟩⟩ else 0

/-- One sweep of the damped Jacobi method over the rows of the matrix of a process -/
noncomputable def sweep (numRows : ℕ) (m : OverlapMatrix.Matrix (P + 1) K) (relaxation : K) (d x : ℕ → K) (i : ℕ) : K :=
  x i + relaxation * ((m.value i i)⁻¹ * (d i - mv numRows m x i))

/-- `Dune::SeqJac::apply(x, d)` with `order` sweeps -/
noncomputable def seqJac (numRows : ℕ) (m : OverlapMatrix.Matrix (P + 1) K) (relaxation : K) (d : ℕ → K) : ℕ → (ℕ → K) → ℕ → K
  | 0, x => x
  | order + 1, x => seqJac numRows m relaxation d order (sweep numRows m relaxation d x)

/-- `OverlappingPreconditioner::apply` (opm/simulators/linalg/overlappingpreconditioner.hh lines 100-139), after the buffers of the vector
have been set up: the preconditioner of each process and `sync`.  Without peers nothing is exchanged. -/
def preconditionProgram (o : Fin (P + 1) → Sync.Overlap (P + 1)) (f : Fin (P + 1) → (ℕ → K) → ℕ → K) (p : Fin (P + 1)) :
    List (Op (Fin (P + 1)) (Sync.Vector (P + 1) K) (Sync.Msg K)) :=
  roundProgram (fun p => (o p).peerSet) (createBuffers o) p
    ++ [.compute fun y => { y with entries := f p y.entries }]
    ++ roundProgram (fun p => (o p).peerSet) (sync o) p

/-- The entries which all processes have after they have finished a program which they started with new vectors. -/
def Gives (o : Fin (P + 1) → Sync.Overlap (P + 1)) (prog : Fin (P + 1) → List (Op (Fin (P + 1)) (Sync.Vector (P + 1) K) (Sync.Msg K)))
    (y0 : Fin (P + 1) → ℕ → K) (x : Vec P (sizes o) K) : Prop :=
  ∃ u, Reach (start prog fun p => fresh (y0 p)) u ∧ Finished u ∧ ∀ p (i : Fin (o p).numDomestic), x ⟨p, i⟩ = (u.state p).entries i

variable [LinearOrder K] [IsStrictOrderedRing K]

/-- The parameters of the solver: `PreconditionerOrder`, `PreconditionerRelaxation`, `LinearSolverTolerance`, the absolute tolerance,
`LinearSolverMaxError`, `LinearSolverMaxIterations`, and constants of the code for tiny numbers and breakdowns -/
structure Parameters (K : Type) where
  order : ℕ
  relaxation : K
  tolerance : K
  absTolerance : K
  maxError : K
  maxIterations : ℕ
  tiny : K
  breakdownEps : K

/-- What the solver works with when all processes call `solve` (opm/simulators/linalg/parallelbasebackend.hh lines 250-283): `o` are the
overlaps, `parts` the data of the processes for the numbering, `m` the overlapping matrices and `b` the native residuals.
* The right hand side is what `assignAddBorder` gives (line 222).
* The operator is `OverlappingOperator::apply`.
* The preconditioner is the Jacobi method on each process and `sync`; `pre` synchronises both vectors
  (opm/simulators/linalg/overlappingpreconditioner.hh lines 83-98) and `post` the solution (line 167).
* The scalar product is that of `OverlappingScalarProduct`, the criterion is `CombinedCriterion`
  (opm/simulators/linalg/parallelbicgstabbackend.hh lines 134-147). -/
structure ParallelOn (o : Fin (P + 1) → Sync.Overlap (P + 1)) (parts : Fin (P + 1) → GlobalIdx.Part (P + 1)) (overlapSize : ℕ)
    (m : Fin (P + 1) → OverlapMatrix.Matrix (P + 1) K) (b : Fin (P + 1) → ℕ → K) (par : Parameters K)
    (sys : Krylov.System (Σ p, Fin (sizes o p)) K (CombinedState K)) : Prop where
  nodup : sys.indices.Nodup
  complete : ∀ i, i ∈ sys.indices
  rhs : Gives o (assignAddBorderProgram o) (fun p => fromNative (o p) (b p)) sys.rhs
  operator : ∀ x, ∃ y0, Gives o (applyProgram o m (part o x)) y0 (sys.operator x)
  precondition : ∀ k y r, Gives o
    (preconditionProgram o fun p => seqJac (o p).numDomestic (m p) par.relaxation (part o r p) par.order) (part o y)
    (sys.precondition k y r)
  pre : ∀ x r, Gives o (program (fun p => (o p).peerSet) [createBuffers o, sync o]) (part o x) (sys.pre x r).1 ∧
    Gives o (program (fun p => (o p).peerSet) [createBuffers o, sync o]) (part o r) (sys.pre x r).2
  post : ∀ x, Gives o (program (fun p => (o p).peerSet) [createBuffers o, sync o]) (part o x) (sys.post x)
  dot : ∀ x y p, sys.dot x y = ScalarProduct.dot (· * ·) overlapSize parts (part o x) (part o y) p
  criterion : sys.criterion = combined par.tiny par.tolerance par.absTolerance par.maxError
  breakdownEps : sys.breakdownEps = par.breakdownEps
  maxIterations : sys.maxIterations = par.maxIterations

/-- The same for overlaps of cells, which are made from the data `d`: peers are those which are listed there as neighbours. -/
abbrev Parallel (o : Fin (P + 1) → Sync.Overlap (P + 1)) (d : Fin (P + 1) → Overlap.Native (P + 1)) (overlapSize : ℕ)
    (m : Fin (P + 1) → OverlapMatrix.Matrix (P + 1) K) (b : Fin (P + 1) → ℕ → K) (par : Parameters K)
    (sys : Krylov.System (Σ p, Fin (sizes o p)) K (CombinedState K)) : Prop :=
  ParallelOn o (Overlap.parts d) overlapSize m b par sys

end Verif.ParSolve
