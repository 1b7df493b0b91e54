import Verif.ParSolve.Model
import Verif.OverlapMatrix.VertexSpec

/-
The linear system of a grid whose vertices are shared by processes, on one process which has all vertices.
-/

set_option autoImplicit false

namespace Verif.ParSolve.Vertex

open Verif.Sync Verif.Overlap.Vertex Verif.OverlapMatrix Verif.OverlapMatrix.Vertex Verif.Criteria

variable {P N : ℕ} {G K : Type} [Field K] [LinearOrder K] [IsStrictOrderedRing K]

/-- The vertices of the whole grid, each once. -/
def Enumerates (verts : Fin P → List G) (vert : Fin N → G) : Prop := Function.Injective vert ∧ ∀ u, u ∈ all verts ↔ ∃ k, vert k = u

/-- The residual of a vertex is the sum of what the processes which have it have assembled. -/
def IsResidual (verts : Fin P → List G) (b : Fin P → ℕ → K) (u : G) (x : K) : Prop :=
  ∃ value : Fin P → K, (∀ q n, (verts q)[n]? = some u → value q = b q n) ∧ (∀ q, u ∉ verts q → value q = 0) ∧ x = ∑ q, value q

/-- One sweep of the damped Jacobi method for the matrix of the whole grid takes the vector `Y` to the value `y` at the vertex `u`. -/
def IsSweep (verts : Fin P → List G) (a : Fin P → NativeMatrix K) (relaxation : K) (D Y : G → K) (u : G) (y : K) : Prop :=
  ∃ z diag, IsProduct verts a Y u z ∧ Entry verts a u u diag ∧ y = Y u + relaxation * (diag⁻¹ * (D u - z))

/-- Several sweeps, one after the other, take the vector `Y` to `Z`.  Entry `k` of the vectors belongs to the vertex `vert k`. -/
def AreSweeps (verts : Fin P → List G) (a : Fin P → NativeMatrix K) (vert : Fin N → G) (relaxation : K) (order : ℕ)
    (D Y Z : (Σ _ : Fin (0 + 1), Fin N) → K) : Prop :=
  ∃ X : ℕ → (Σ _ : Fin (0 + 1), Fin N) → K, X 0 = Y ∧ X order = Z ∧
    ∀ j < order, ∀ X' D' : G → K, (∀ k, X' (vert k) = X j ⟨0, k⟩) → (∀ k, D' (vert k) = D ⟨0, k⟩) →
      ∀ k, IsSweep verts a relaxation D' X' (vert k) (X (j + 1) ⟨0, k⟩)

/-- What the solver works with on one process which has the whole matrix, the whole residual, and no overlap: entry `k` of the
vectors belongs to the vertex `vert k`. -/
structure Whole (verts : Fin P → List G) (a : Fin P → NativeMatrix K) (b : Fin P → ℕ → K) (vert : Fin N → G)
    (par : Parameters K) (sys : Krylov.System (Σ _ : Fin (0 + 1), Fin N) K (CombinedState K)) : Prop where
  nodup : sys.indices.Nodup
  complete : ∀ i, i ∈ sys.indices
  rhs : ∀ k, IsResidual verts b (vert k) (sys.rhs ⟨0, k⟩)
  operator : ∀ X (X' : G → K), (∀ k, X' (vert k) = X ⟨0, k⟩) → ∀ k, IsProduct verts a X' (vert k) (sys.operator X ⟨0, k⟩)
  precondition : ∀ n Y D, AreSweeps verts a vert par.relaxation par.order D Y (sys.precondition n Y D)
  pre : ∀ x r, sys.pre x r = (x, r)
  post : ∀ x, sys.post x = x
  dot : ∀ x y, sys.dot x y = ∑ k, x ⟨0, k⟩ * y ⟨0, k⟩
  criterion : sys.criterion = combined (P := 0) (n := fun _ => N) par.tiny par.tolerance par.absTolerance par.maxError
  breakdownEps : sys.breakdownEps = par.breakdownEps
  maxIterations : sys.maxIterations = par.maxIterations

/-- All processes together did what the one process did: the solver broke down in the same iteration, or it came to the same verdict in the
same iteration, and the native result of each process has the values of the one process for all its vertices, shared or not. -/
def SameOutcome (verts : Fin (P + 1) → List G) (o : Fin (P + 1) → Sync.Overlap (P + 1)) (vert : Fin N → G) :
    Krylov.Outcome (Σ p, Fin (sizes o p)) K → Krylov.Outcome (Σ _ : Fin (0 + 1), Fin N) K → Prop
  | .breakdown n, .breakdown n' => n = n'
  | .returned converged x n, .returned converged' X n' => converged = converged' ∧ n = n' ∧
      ∀ p (i : ℕ) k, (verts p)[i]? = some (vert k) → assignTo (o p) (part o x p) i = X ⟨0, k⟩
  | _, _ => False

end Verif.ParSolve.Vertex
