import Verif.ParSolve.BlockModel
import Verif.ParSolve.Spec

/-
The same linear system of blocks on one process which has all cells.
-/

set_option autoImplicit false

namespace Verif.ParSolve.Block

open Verif.Sync Verif.Overlap Verif.OverlapMatrix Verif.Criteria

variable {P N n : ℕ} {G K : Type} [Field K] [LinearOrder K] [IsStrictOrderedRing K]

/-- The block of a vector on one process which belongs to the `k`-th cell -/
def block (X : (Σ _ : Fin (0 + 1), Fin (N * n)) → K) (k : Fin N) : Blk n K := fun j => X ⟨0, finProdFinEquiv (k, j)⟩

/-- The vector on one process with given blocks -/
def flat (f : Fin N → Blk n K) (i : Σ _ : Fin (0 + 1), Fin (N * n)) : K := f (finProdFinEquiv.symm i.2).1 (finProdFinEquiv.symm i.2).2

/-- The residual of a cell is that which its owner has. -/
def IsResidual (g : Grid (P + 1) G) (b : Fin (P + 1) → ℕ → Blk n K) (c : G) (x : Blk n K) : Prop :=
  ∃ i, (g.cells (g.owner c))[i]? = some c ∧ x = b (g.owner c) i

/-- The product of the matrix of the whole grid with a vector at `c`, as a sum over the columns which the owner of `c` has -/
def IsProduct (g : Grid (P + 1) G) (a : Fin (P + 1) → NativeMatrix (Mat n K)) (X : G → Blk n K) (c : G) (y : Blk n K) : Prop :=
  ∃ i, (g.cells (g.owner c))[i]? = some c ∧
    y = (((a (g.owner c)).cols i).map fun m => ((g.cells (g.owner c))[m]?).elim 0 fun c' => ((a (g.owner c)).value i m).mulVec (X c')).sum

/-- One sweep of the damped block Jacobi method for the matrix of the whole grid takes the vector `Y` to the value `y` at the cell `c`. -/
def IsSweep (g : Grid (P + 1) G) (a : Fin (P + 1) → NativeMatrix (Mat n K)) (relaxation : K) (D Y : G → Blk n K) (c : G) (y : Blk n K) : Prop :=
  ∃ z diag, IsProduct g a Y c z ∧ Entry g a c c diag ∧ y = Y c + relaxation • (diag⁻¹.mulVec (D c - z))

/-- Several sweeps, one after the other, take the vector `Y` to `Z`. -/
def AreSweeps (g : Grid (P + 1) G) (a : Fin (P + 1) → NativeMatrix (Mat n K)) (cell : Fin N → G) (relaxation : K) (order : ℕ)
    (D Y Z : (Σ _ : Fin (0 + 1), Fin (N * n)) → K) : Prop :=
  ∃ X : ℕ → (Σ _ : Fin (0 + 1), Fin (N * n)) → K, X 0 = Y ∧ X order = Z ∧
    ∀ j < order, ∀ X' D' : G → Blk n K, (∀ k, X' (cell k) = block (X j) k) → (∀ k, D' (cell k) = block D k) →
      ∀ k, IsSweep g a relaxation D' X' (cell k) (block (X (j + 1)) k)

/-- What the solver works with on one process which has the whole matrix, the whole residual, and no overlap: block `k` of the
vectors belongs to the cell `cell k`. -/
structure Whole (g : Grid (P + 1) G) (a : Fin (P + 1) → NativeMatrix (Mat n K)) (b : Fin (P + 1) → ℕ → Blk n K) (cell : Fin N → G)
    (par : Parameters K) (sys : Krylov.System (Σ _ : Fin (0 + 1), Fin (N * n)) K (CombinedState K)) : Prop where
  nodup : sys.indices.Nodup
  complete : ∀ i, i ∈ sys.indices
  rhs : ∀ k, IsResidual g b (cell k) (block sys.rhs k)
  operator : ∀ X (X' : G → Blk n K), (∀ k, X' (cell k) = block X k) → ∀ k, IsProduct g a X' (cell k) (block (sys.operator X) k)
  precondition : ∀ j Y D, AreSweeps g a cell par.relaxation par.order D Y (sys.precondition j Y D)
  pre : ∀ x r, sys.pre x r = (x, r)
  post : ∀ x, sys.post x = x
  dot : ∀ x y, sys.dot x y = ∑ i, x i * y i
  criterion : sys.criterion = combined (P := 0) (n := fun _ => N * n) par.tiny par.tolerance par.absTolerance par.maxError
  breakdownEps : sys.breakdownEps = par.breakdownEps
  maxIterations : sys.maxIterations = par.maxIterations

/-- All processes together did what the one process did: the solver broke down in the same iteration, or it came to the same verdict in the
same iteration, and the native result of each process has the blocks of the one process for its own cells, and zeros for copies
of others' cells. -/
def SameOutcome (g : Grid (P + 1) G) (o : Fin (P + 1) → Sync.Overlap (P + 1)) (cell : Fin N → G) :
    Krylov.Outcome (Σ p, Fin (sizes n o p)) K → Krylov.Outcome (Σ _ : Fin (0 + 1), Fin (N * n)) K → Prop
  | .breakdown j, .breakdown j' => j = j'
  | .returned converged x j, .returned converged' X j' => converged = converged' ∧ j = j' ∧
      ∀ p (i : ℕ) k, (g.cells p)[i]? = some (cell k) →
        assignTo (o p) (part o x p) i = if g.owner (cell k) = p then block X k else 0
  | _, _ => False

end Verif.ParSolve.Block
