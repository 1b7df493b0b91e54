import Verif.ParNewton.Model
import Verif.ParSolve.BlockSpec
import Verif.GridComm.Props
import Mathlib.Logic.Function.Basic

/-
What is to be solved, on one process which has all cells and on several processes which share them.
-/

set_option autoImplicit false

namespace Verif.ParNewton

open Verif.Mpi Verif.Sync Verif.Overlap Verif.OverlapMatrix Verif.Newton Verif.Criteria Verif.ParSolve.Block Verif.GridComm
open Verif.ParSolve (Enumerates)

variable {P N E : ℕ} {G K V : Type}

/-- The equations, `E` for each cell, and what belongs to a cell.
* `stencil c` are the cells on which the equation of `c` depends.
* `row c X` is what linearising the equations of `c` at the solution `X` gives: their residuals and their derivatives, or an exception.
* `volume`, `weight`: the volume of the cell and the weights of its equations
* `update c v w` is what the Newton method makes of the primary variables `v` and the result `w` of the linear solver.
* `constraint c` are the primary variables which the problem prescribes for `c`, if it does. -/
structure Equations (G : Type) (E : ℕ) (K V : Type) where
  stencil : G → List G
  row : G → (G → V) → Option (Blk E K × (G → Mat E K))
  volume : G → K
  weight : G → Fin E → K
  update : G → V → Blk E K → V
  constraint : G → Option V := fun _ => none

/-- Equations depend on the cells of their stencils only; a cell is in its own stencil. -/
structure Local (eqs : Equations G E K V) : Prop where
  nodup : ∀ c, (eqs.stencil c).Nodup
  self : ∀ c, c ∈ eqs.stencil c
  row : ∀ c X Y, (∀ c' ∈ eqs.stencil c, X c' = Y c') → eqs.row c X = eqs.row c Y

/-- Parameters of the Newton method, whether the problem succeeds at the beginning and the end of iterations, parameters of the linear
solver and what its convergence criterion is at first -/
structure Settings (K : Type) where
  tolerance : K
  maxError : K
  maxIterations : ℕ
  targetIterations : ℕ
  beginOk : ℕ → Bool
  endOk : ℕ → Bool
  solver : ParSolve.Parameters K
  criterion : CombinedState K

/-! ### One process -/

section
variable [Field K] [LinearOrder K] [IsStrictOrderedRing K]

/-- The values of a vector with one entry per cell, as a function of cells (of others: the default) -/
noncomputable def onCells {α : Type} [Inhabited α] (cell : Fin N → G) (x : Fin N → α) : G → α :=
  Function.extend cell x fun _ => default

/-- The linearised equation of the cell number `k` -/
noncomputable def rowAt [Inhabited V] (eqs : Equations G E K V) (cell : Fin N → G) (x : ℕ → V) (k : Fin N) : Option (Blk E K × (G → Mat E K)) :=
  eqs.row (cell k) (onCells cell fun j => x j)

/-- Product of the Jacobian matrix and a vector: the sum over the stencil of the cell number `k` -/
noncomputable def product [Inhabited V] (eqs : Equations G E K V) (cell : Fin N → G) (x : ℕ → V)
    (y : (Σ _ : Fin (0 + 1), Fin (N * E)) → K) (k : Fin N) : Blk E K :=
  letI : Inhabited (Blk E K) := ⟨0⟩
  ((eqs.stencil (cell k)).map fun c' => ((rowAt eqs cell x k).elim 0 fun r => r.2 c').mulVec (onCells cell (fun j => block y j) c')).sum

/-- The linear system on one process: the Jacobian matrix and the residual at the solution `x`, sweeps of the block Jacobi method as
preconditioner -/
noncomputable def linearSystem [Inhabited V] (eqs : Equations G E K V) (cell : Fin N → G) (par : ParSolve.Parameters K) (x : ℕ → V) :
    Krylov.System (Σ _ : Fin (0 + 1), Fin (N * E)) K (CombinedState K) where
  indices := (Finset.univ : Finset (Σ _ : Fin (0 + 1), Fin (N * E))).toList
  operator y := flat fun k => product eqs cell x y k
  pre y r := (y, r)
  precondition _ y r := (fun y => flat fun k => block y k + par.relaxation •
    (((rowAt eqs cell x k).elim 0 fun r => r.2 (cell k))⁻¹.mulVec (block r k - product eqs cell x y k)))^[par.order] y
  post y := y
  dot y z := ∑ i, y i * z i
  criterion := combined (P := 0) (n := fun _ => N * E) par.tiny par.tolerance par.absTolerance par.maxError
  rhs := flat fun k => (rowAt eqs cell x k).elim 0 fun r => r.1
  breakdownEps := par.breakdownEps
  maxIterations := par.maxIterations

open Classical in
/-- The Newton method on one process: entry `k` of the solution belongs to the cell `cell k`. -/
noncomputable def single [Inhabited V] (eqs : Equations G E K V) (cell : Fin N → G) (set : Settings K) : Newton.Env K V (Blk E K) where
  numGridDof := N
  numTotalDof := N
  volume i := if h : i < N then eqs.volume (cell ⟨i, h⟩) else 0
  weight i j := if h : i < N ∧ j < E then eqs.weight (cell ⟨i, h.1⟩) ⟨j, h.2⟩ else 0
  constraints i := if h : i < N then eqs.constraint (cell ⟨i, h⟩) else none
  beginIterationOk := set.beginOk
  endIterationOk := set.endOk
  linearize _ x :=
    if ∀ k, (rowAt eqs cell x k).isSome = true then
      .residual fun i => if h : i < N then List.ofFn fun j => .num ((rowAt eqs cell x ⟨i, h⟩).elim 0 (fun r => r.1) j) else []
    else .caught
  solve _ x :=
    match Krylov.apply (linearSystem eqs cell set.solver x) set.criterion with
    | .breakdown _ => .caught
    | .returned false _ _ => .notConverged
    | .returned true u _ => .update (fun i => if h : i < N then block u ⟨i, h⟩ else 0) true
  updatePrimaryVariables i v w := if h : i < N then eqs.update (cell ⟨i, h⟩) v w else v
  subtract v _ := v
  tolerance := set.tolerance
  maxError := set.maxError
  maxIterations := set.maxIterations
  targetIterations := set.targetIterations

end

/-! ### Several processes -/

/-- The function `X` has the values which a process has for its cells. -/
def Sees (cells : List G) (x : ℕ → V) (X : G → V) : Prop := ∀ (i : ℕ) c, cells[i]? = some c → X c = x i

/-- How the grid lets processes communicate: owners send the values of their cells to all processes which have copies of them. -/
structure Ghosts (g : Grid (P + 1) G) (face : Interface (P + 1) G) : Prop where
  proper : Proper face fun p => {c | c ∈ g.cells p}
  fromOwner : FromOwner face (fun p => {c | c ∈ g.cells p}) g.owner
  index : ∀ p (i : ℕ) c, (g.cells p)[i]? = some c → face.index p c = i

/-- The columns of the native matrices: rows of own cells have the cells of the stencil as columns, all of which the process has; rows
have no column twice. -/
structure Pattern (eqs : Equations G E K V) (g : Grid (P + 1) G) (cols : Fin (P + 1) → ℕ → List ℕ) : Prop where
  nodup : ∀ p n, (cols p n).Nodup
  range : ∀ p n, ∀ m ∈ cols p n, m < (g.cells p).length
  own : ∀ p (n : ℕ) c, (g.cells p)[n]? = some c → g.owner c = p →
    ∀ c', c' ∈ eqs.stencil c ↔ ∃ m ∈ cols p n, (g.cells p)[m]? = some c'

variable [Field K] [LinearOrder K] [IsStrictOrderedRing K]

/-- The machine `M` runs the code for the equations `eqs` on the grid `g`.  `o` and `black` are the overlaps which the processes have set up
from the data `d`, and `face` is what the grid provides for communication.
* The numbers and functions of each process are those of its cells and the same settings everywhere, and so are the constraints.  The
  problem fails where one of the processes does.
* Copies are updated by messages of `syncOverlap`.
* If the linearization of a process succeeds, rows of its own cells are those of the equations at the values which it has.  Rows of copies
  can be anything.  If it throws, one of its cells is to blame, whatever the values of cells are which it does not have.
* The residual goes through the overlapping vectors, the linear system through `Verif.ParSolve`. -/
structure Runs (eqs : Equations G E K V) (set : Settings K) (g : Grid (P + 1) G) (d : Fin (P + 1) → Overlap.Native (P + 1)) (overlapSize : ℕ)
    (o : Fin (P + 1) → Sync.Overlap (P + 1)) (black : Fin (P + 1) → ℕ → Option ℕ) (face : Interface (P + 1) G) (M : Machine P E K V) :
    Prop where
  numGridDof : ∀ p, (M.env p).numGridDof = (g.cells p).length
  numTotalDof : ∀ p, (M.env p).numTotalDof = (g.cells p).length
  volume : ∀ p (i : ℕ) c, (g.cells p)[i]? = some c → (M.env p).volume i = eqs.volume c
  weight : ∀ p (i : ℕ) c, (g.cells p)[i]? = some c → ∀ j : Fin E, (M.env p).weight i j = eqs.weight c j
  update : ∀ p (i : ℕ) c, (g.cells p)[i]? = some c → ∀ v w, (M.env p).updatePrimaryVariables i v w = eqs.update c v w
  constraints : ∀ p (i : ℕ) c, (g.cells p)[i]? = some c → (M.env p).constraints i = eqs.constraint c
  tolerance : ∀ p, (M.env p).tolerance = set.tolerance
  maxError : ∀ p, (M.env p).maxError = set.maxError
  maxIterations : ∀ p, (M.env p).maxIterations = set.maxIterations
  targetIterations : ∀ p, (M.env p).targetIterations = set.targetIterations
  beginOk : ∀ n, set.beginOk n = true ↔ ∀ p, (M.env p).beginIterationOk n = true
  endOk : ∀ n, set.endOk n = true ↔ ∀ p, (M.env p).endIterationOk n = true
  syncOverlap : ∀ n x, ∃ s, Reach (start (communicate face scatterGhostSync) x) s ∧ Finished s ∧ M.syncOverlap n x = s.state
  linearized : ∀ n p x a b, M.linearize n p x = some (a, b) → a.numRows = (g.cells p).length ∧ a.cols = (d p).cols ∧
    ∀ (i : ℕ) c, (g.cells p)[i]? = some c → g.owner c = p → ∃ J, (∀ X, Sees (g.cells p) x X → eqs.row c X = some (b i, J)) ∧
      ∀ m ∈ a.cols i, ∀ c', (g.cells p)[m]? = some c' → a.value i m = J c'
  failed : ∀ n p x, M.linearize n p x = none → ∃ c ∈ g.cells p, ∀ X, Sees (g.cells p) x X → eqs.row c X = none
  residual : ∀ n b, ∃ R, Gives o (assignAddBorderProgram o) (fun p => fromNative (o p) (b p)) R ∧
    ∀ p i, M.residual n b p i = assignTo (o p) (part o R p) i
  solve : ∀ n a b, (∀ p, (a p).numRows = (g.cells p).length ∧ (a p).cols = (d p).cols) →
    ∃ m all, Assigned o black a m ∧ Parallel o d overlapSize m b set.solver all ∧
      M.solve n a b = match Krylov.apply all set.criterion with
        | .breakdown _ => none
        | .returned converged x _ => some (converged, fun p => assignTo (o p) (part o x p))

/-- All processes have the values of the vector `x` of the whole grid for their own cells. -/
def HaveOwn {α : Type} (g : Grid (P + 1) G) (cell : Fin N → G) (y : Fin (P + 1) → ℕ → α) (x : ℕ → α) : Prop :=
  ∀ p (i : ℕ) k, (g.cells p)[i]? = some (cell k) → g.owner (cell k) = p → y p i = x k

/-- All processes have the values of the vector `x` of the whole grid for all of their cells, also for copies. -/
def HaveAll {α : Type} (g : Grid (P + 1) G) (cell : Fin N → G) (y : Fin (P + 1) → ℕ → α) (x : ℕ → α) : Prop :=
  ∀ p (i : ℕ) k, (g.cells p)[i]? = some (cell k) → y p i = x k

/-- What the constraints make of the solution `x` of the whole grid -/
def constrain (eqs : Equations G E K V) (cell : Fin N → G) (x : ℕ → V) : ℕ → V :=
  fun i => if h : i < N then (eqs.constraint (cell ⟨i, h⟩)).getD (x i) else x i

/-- Valid cached intensive quantities are those of the solution `x` of the whole grid. -/
def Fresh (g : Grid (P + 1) G) (cell : Fin N → G) (cache : Fin (P + 1) → ℕ → Option V) (x : ℕ → V) : Prop :=
  ∀ p (i : ℕ) k, (g.cells p)[i]? = some (cell k) → ∀ v, cache p i = some v → v = x k

/-- The Newton method ended in the same way on all processes as on the single one, with the same error and number of iterations, and own
cells have the same values. -/
def SameEnd (g : Grid (P + 1) G) (cell : Fin N → G) : Option (Ended P K V) → Option (Newton.Outcome × NState K V) → Prop
  | none, none => True
  | some (.finished r), some (outcome, st) =>
      (∀ p, (r p).1 = outcome ∧ (r p).2.error = st.error ∧ (r p).2.lastError = st.lastError ∧ (r p).2.iterations = st.iterations) ∧
        HaveOwn g cell (fun p => (r p).2.sol) st.sol
  | _, _ => False

end Verif.ParNewton
