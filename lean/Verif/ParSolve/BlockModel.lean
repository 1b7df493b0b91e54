import Verif.ParSolve.Model
import Mathlib.LinearAlgebra.Matrix.NonsingularInverse
import Mathlib.Logic.Equiv.Fin.Basic

/-
The parallel linear solver for vectors and matrices of blocks, as the models use them: each degree of freedom has as many entries as
there are equations.

This is the same code as in `Verif.ParSolve.Model` (see there for the lines); what is added are the blocks.  Blocks are sent as a whole
(opm/simulators/linalg/overlappingblockvector.hh lines 229-260, opm/simulators/linalg/overlappingbcrsmatrix.hh lines 515-560), the scalar
product multiplies blocks (opm/simulators/linalg/overlappingscalarproduct.hh lines 61-66), the criterion looks at all entries of blocks
(opm/simulators/linalg/combinedcriterion.hh lines 182-196), and the Jacobi method of Dune solves the diagonal block of each row.  A diagonal
block which is singular makes Dune throw or divide by zero; here its inverse is zero then.
-/

set_option autoImplicit false

namespace Verif.ParSolve.Block

open Verif.Mpi Verif.Sync Verif.Overlap Verif.OverlapMatrix Verif.Criteria

variable {P : ℕ} {K : Type} [Field K]

/-- The blocks of vectors (`Dune::FieldVector`) -/
abbrev Blk (n : ℕ) (K : Type) := Fin n → K

/-- The blocks of matrices (`MatrixBlock`) -/
abbrev Mat (n : ℕ) (K : Type) := _root_.Matrix (Fin n) (Fin n) K

/-- The numbers of scalar entries of the vectors of all processes -/
abbrev sizes (n : ℕ) (o : Fin (P + 1) → Sync.Overlap (P + 1)) (p : Fin (P + 1)) : ℕ := (o p).numDomestic * n

/-- The blocks of a distributed vector on the process `p`; the entries of a block are next to each other. -/
def part {n : ℕ} (o : Fin (P + 1) → Sync.Overlap (P + 1)) (x : Vec P (sizes n o) K) (p : Fin (P + 1)) (i : ℕ) : Blk n K :=
  fun k => if h : i < (o p).numDomestic then x ⟨p, finProdFinEquiv (⟨i, h⟩, k)⟩ else 0

open Classical in
/-- `mv` of a Dune matrix of blocks -/
noncomputable def mv {n : ℕ} (numRows : ℕ) (s : OverlapMatrix.Matrix (P + 1) (Mat n K)) (x : ℕ → Blk n K) (i : ℕ) : Blk n K :=
  ∑ j ∈ (Finset.range numRows).filter (s.pattern i), (s.value i j).mulVec (x j)

/-- `OverlappingOperator::apply` (opm/simulators/linalg/overlappingoperator.hh lines 58-63) after the buffers of the vector have been set up -/
noncomputable def applyProgram {n : ℕ} (o : Fin (P + 1) → Sync.Overlap (P + 1)) (s : Fin (P + 1) → OverlapMatrix.Matrix (P + 1) (Mat n K))
    (x : Fin (P + 1) → ℕ → Blk n K) (p : Fin (P + 1)) : List (Op (Fin (P + 1)) (Sync.Vector (P + 1) (Blk n K)) (Sync.Msg (Blk n K))) :=
  roundProgram (fun p => (o p).peerSet) (createBuffers o) p
    ++ [.compute fun y => { y with entries := mv (o p).numDomestic (s p) (x p) }]
    ++ roundProgram (fun p => (o p).peerSet) (sync o) p

/-- One sweep of the damped block Jacobi method over the rows of the matrix of a process -/
noncomputable def sweep {n : ℕ} (numRows : ℕ) (m : OverlapMatrix.Matrix (P + 1) (Mat n K)) (relaxation : K) (d x : ℕ → Blk n K) (i : ℕ) : Blk n K :=
  x i + relaxation • ((m.value i i)⁻¹.mulVec (d i - mv numRows m x i))

/-- `Dune::SeqJac::apply(x, d)` with `order` sweeps -/
noncomputable def seqJac {n : ℕ} (numRows : ℕ) (m : OverlapMatrix.Matrix (P + 1) (Mat n K)) (relaxation : K) (d : ℕ → Blk n K) :
    ℕ → (ℕ → Blk n K) → ℕ → Blk n K
  | 0, x => x
  | order + 1, x => seqJac numRows m relaxation d order (sweep numRows m relaxation d x)

/-- `OverlappingPreconditioner::apply` (opm/simulators/linalg/overlappingpreconditioner.hh lines 100-139), after the buffers of the vector
have been set up -/
def preconditionProgram {n : ℕ} (o : Fin (P + 1) → Sync.Overlap (P + 1)) (f : Fin (P + 1) → (ℕ → Blk n K) → ℕ → Blk n K) (p : Fin (P + 1)) :
    List (Op (Fin (P + 1)) (Sync.Vector (P + 1) (Blk n K)) (Sync.Msg (Blk n K))) :=
  roundProgram (fun p => (o p).peerSet) (createBuffers o) p
    ++ [.compute fun y => { y with entries := f p y.entries }]
    ++ roundProgram (fun p => (o p).peerSet) (sync o) p

/-- The entries which all processes have after they have finished a program which they started with new vectors. -/
def Gives {n : ℕ} (o : Fin (P + 1) → Sync.Overlap (P + 1))
    (prog : Fin (P + 1) → List (Op (Fin (P + 1)) (Sync.Vector (P + 1) (Blk n K)) (Sync.Msg (Blk n K))))
    (y0 : Fin (P + 1) → ℕ → Blk n K) (x : Vec P (sizes n o) K) : Prop :=
  ∃ u, Reach (start prog fun p => fresh (y0 p)) u ∧ Finished u ∧
    ∀ p (i : Fin (o p).numDomestic) k, x ⟨p, finProdFinEquiv (i, k)⟩ = (u.state p).entries i k

variable [LinearOrder K] [IsStrictOrderedRing K]

/-- What the solver works with when all processes call `solve` (opm/simulators/linalg/parallelbasebackend.hh lines 250-283), as in
`Verif.ParSolve.ParallelOn`, for blocks with `n` entries -/
structure Parallel {n : ℕ} (o : Fin (P + 1) → Sync.Overlap (P + 1)) (d : Fin (P + 1) → Overlap.Native (P + 1)) (overlapSize : ℕ)
    (m : Fin (P + 1) → OverlapMatrix.Matrix (P + 1) (Mat n K)) (b : Fin (P + 1) → ℕ → Blk n K) (par : Parameters K)
    (sys : Krylov.System (Σ p, Fin (sizes n o p)) K (CombinedState K)) : Prop where
  nodup : sys.indices.Nodup
  complete : ∀ i, i ∈ sys.indices
  rhs : Gives o (assignAddBorderProgram o) (fun p => fromNative (o p) (b p)) sys.rhs
  operator : ∀ x, ∃ y0, Gives o (applyProgram o m (part o x)) y0 (sys.operator x)
  precondition : ∀ k y r, Gives o
    (preconditionProgram o fun p => seqJac (o p).numDomestic (m p) par.relaxation (part o r p) par.order) (part o y)
    (sys.precondition k y r)
  pre : ∀ x r, Gives o (program (fun p => (o p).peerSet) [createBuffers o, sync o]) (part o x) (sys.pre x r).1 ∧
    Gives o (program (fun p => (o p).peerSet) [createBuffers o, sync o]) (part o r) (sys.pre x r).2
  post : ∀ x, Gives o (program (fun p => (o p).peerSet) [createBuffers o, sync o]) (part o x) (sys.post x)
  dot : ∀ x y p, sys.dot x y = ScalarProduct.dot dotProduct overlapSize (Overlap.parts d) (part o x) (part o y) p
  criterion : sys.criterion = combined par.tiny par.tolerance par.absTolerance par.maxError
  breakdownEps : sys.breakdownEps = par.breakdownEps
  maxIterations : sys.maxIterations = par.maxIterations

end Verif.ParSolve.Block
