import Verif.ParSolve.Model

/-
The same linear system on one process which has all cells.
-/

set_option autoImplicit false

namespace Verif.ParSolve

open Verif.Sync Verif.Overlap Verif.OverlapMatrix Verif.Criteria

variable {P N : ℕ} {G K : Type} [Field K] [LinearOrder K] [IsStrictOrderedRing K]

/-- The cells of the whole grid, each once. -/
def Enumerates (g : Grid (P + 1) G) (cell : Fin N → G) : Prop := Function.Injective cell ∧ ∀ c, c ∈ g.all ↔ ∃ k, cell k = c

/-- The residual of a cell is that which its owner has. -/
def IsResidual (g : Grid (P + 1) G) (b : Fin (P + 1) → ℕ → K) (c : G) (x : K) : Prop :=
  ∃ n, (g.cells (g.owner c))[n]? = some c ∧ x = b (g.owner c) n

/-- One sweep of the damped Jacobi method for the matrix of the whole grid takes the vector `Y` to the value `y` at the cell `c`. -/
def IsSweep (g : Grid (P + 1) G) (a : Fin (P + 1) → NativeMatrix K) (relaxation : K) (D Y : G → K) (c : G) (y : K) : Prop :=
  ∃ z diag, IsProduct g a Y c z ∧ Entry g a c c diag ∧ y = Y c + relaxation * (diag⁻¹ * (D c - z))

/-- Several sweeps, one after the other, take the vector `Y` to `Z`.  Entry `k` of the vectors belongs to the cell `cell k`. -/
def AreSweeps (g : Grid (P + 1) G) (a : Fin (P + 1) → NativeMatrix K) (cell : Fin N → G) (relaxation : K) (order : ℕ)
    (D Y Z : (Σ _ : Fin (0 + 1), Fin N) → K) : Prop :=
  ∃ X : ℕ → (Σ _ : Fin (0 + 1), Fin N) → K, X 0 = Y ∧ X order = Z ∧
    ∀ j < order, ∀ X' D' : G → K, (∀ k, X' (cell k) = X j ⟨0, k⟩) → (∀ k, D' (cell k) = D ⟨0, k⟩) →
      ∀ k, IsSweep g a relaxation D' X' (cell k) (X (j + 1) ⟨0, k⟩)

/-- The cell `c'` can be reached from the cell `c` in `k` steps, each from the row of a cell to one of its columns in the matrix of the
owner of the row. -/
inductive Steps {P : ℕ} (g : Grid P G) (cols : Fin P → ℕ → List ℕ) : ℕ → G → G → Prop
  | none (c : G) : Steps g cols 0 c c
  | more (k n m : ℕ) (c c' c'' : G) (h : Steps g cols k c c') (hn : (g.cells (g.owner c'))[n]? = some c')
      (hm : (g.cells (g.owner c'))[m]? = some c'') (hc : m ∈ cols (g.owner c') n) : Steps g cols (k + 1) c c''

/-- The overlap is wide enough for `n` sweeps: each process has copies of all cells which are at most `n` steps away from its own ones. -/
def Wide (g : Grid (P + 1) G) (d : Fin (P + 1) → Overlap.Native (P + 1)) (overlapSize : ℕ) (cols : Fin (P + 1) → ℕ → List ℕ) (n : ℕ) : Prop :=
  ∀ c ∈ g.all, ∀ k ≤ n, ∀ c', Steps g cols k c c' → InOverlap g d overlapSize (g.owner c) c'

/-- What the solver works with on one process which has the whole matrix, the whole residual, and no overlap: entry `k` of the
vectors belongs to the cell `cell k`. -/
structure Whole (g : Grid (P + 1) G) (a : Fin (P + 1) → NativeMatrix K) (b : Fin (P + 1) → ℕ → K) (cell : Fin N → G)
    (par : Parameters K) (sys : Krylov.System (Σ _ : Fin (0 + 1), Fin N) K (CombinedState K)) : Prop where
  nodup : sys.indices.Nodup
  complete : ∀ i, i ∈ sys.indices
  rhs : ∀ k, IsResidual g b (cell k) (sys.rhs ⟨0, k⟩)
  operator : ∀ X (X' : G → K), (∀ k, X' (cell k) = X ⟨0, k⟩) → ∀ k, IsProduct g a X' (cell k) (sys.operator X ⟨0, k⟩)
  precondition : ∀ n Y D, AreSweeps g a cell par.relaxation par.order D Y (sys.precondition n Y D)
  pre : ∀ x r, sys.pre x r = (x, r)
  post : ∀ x, sys.post x = x
  dot : ∀ x y, sys.dot x y = ∑ k, x ⟨0, k⟩ * y ⟨0, k⟩
  criterion : sys.criterion = combined (P := 0) (n := fun _ => N) par.tiny par.tolerance par.absTolerance par.maxError
  breakdownEps : sys.breakdownEps = par.breakdownEps
  maxIterations : sys.maxIterations = par.maxIterations

/-- All processes together did what the one process did: the solver broke down in the same iteration, or it came to the same verdict in the
same iteration, and the native result of each process has the values of the one process for its own cells, and zeros for copies
of others' cells. -/
def SameOutcome (g : Grid (P + 1) G) (o : Fin (P + 1) → Sync.Overlap (P + 1)) (cell : Fin N → G) :
    Krylov.Outcome (Σ p, Fin (sizes o p)) K → Krylov.Outcome (Σ _ : Fin (0 + 1), Fin N) K → Prop
  | .breakdown n, .breakdown n' => n = n'
  | .returned converged x n, .returned converged' X n' => converged = converged' ∧ n = n' ∧
      ∀ p (i : ℕ) k, (g.cells p)[i]? = some (cell k) →
        assignTo (o p) (part o x p) i = if g.owner (cell k) = p then X ⟨0, k⟩ else 0
  | _, _ => False

end Verif.ParSolve
