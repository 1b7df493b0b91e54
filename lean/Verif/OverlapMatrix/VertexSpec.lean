import Verif.OverlapMatrix.Spec
import Verif.Overlap.VertexSpec
import Mathlib.Algebra.BigOperators.Group.Finset.Basic

/-
What the matrices and products of all processes should be if the degrees of freedom are vertices, which several processes may share.
-/

set_option autoImplicit false

namespace Verif.OverlapMatrix.Vertex

open Verif.Sync Verif.Overlap.Vertex

variable {P : ℕ} {G K : Type}

/-- The native matrices have a row for each vertex of the process, and the columns of the matrices for which the overlaps have been set
up, each at most once in a row. -/
def Native (verts : Fin P → List G) (d : Fin P → Overlap.Native P) (a : Fin P → NativeMatrix K) : Prop :=
  ∀ p, (verts p).length ≤ (a p).numRows ∧ ∀ n, ((a p).cols n).Nodup ∧ (a p).cols n = (d p).cols n

/-- The process `q` has assembled the value `x` for the row of the vertex `u` and the column of the vertex `v`. -/
def Part (verts : Fin P → List G) (a : Fin P → NativeMatrix K) (q : Fin P) (u v : G) (x : K) : Prop :=
  ∃ n m, (verts q)[n]? = some u ∧ (verts q)[m]? = some v ∧ m ∈ (a q).cols n ∧ (a q).value n m = x

/-- The matrix of the whole grid has the entry `x` for the row of `u` and the column of `v`: there is one on some process, and `x` is
the sum of those of all processes. -/
def Entry [AddCommMonoid K] (verts : Fin P → List G) (a : Fin P → NativeMatrix K) (u v : G) (x : K) : Prop :=
  (∃ q y, Part verts a q u v y) ∧ ∃ part : Fin P → K, (∀ q y, Part verts a q u v y → part q = y) ∧
    (∀ q, (∀ y, ¬Part verts a q u v y) → part q = 0) ∧ x = ∑ q, part q

/-- The matrices of all processes are parts of the matrix of the whole grid: a process has an entry for two vertices of its overlap
exactly if the matrix of the whole grid has one, with the same value. -/
def Distributed [AddCommMonoid K] (verts : Fin P → List G) (number : G → ℕ) (o : Fin P → Overlap P) (a : Fin P → NativeMatrix K)
    (s : Fin P → Matrix P K) : Prop :=
  ∀ p, ∀ i < (o p).numDomestic, ∀ j < (o p).numDomestic, ∀ u ∈ all verts, ∀ v ∈ all verts,
    (o p).domesticToGlobal i = number u → (o p).domesticToGlobal j = number v →
      ∀ x, ((s p).pattern i j ∧ (s p).value i j = x) ↔ Entry verts a u v x

/-- The product of the matrix of the whole grid with a vector at `u`: the sum of the products of the rows which the processes have
assembled. -/
def IsProduct [Semiring K] (verts : Fin P → List G) (a : Fin P → NativeMatrix K) (X : G → K) (u : G) (y : K) : Prop :=
  ∃ row : Fin P → K, (∀ q n, (verts q)[n]? = some u →
      row q = (((a q).cols n).map fun m => ((verts q)[m]?).elim 0 fun v => (a q).value n m * X v).sum) ∧
    (∀ q, u ∉ verts q → row q = 0) ∧ y = ∑ q, row q

/-- The vectors have the same value for a vertex on all processes. -/
def Consistent (verts : Fin P → List G) (number : G → ℕ) (o : Fin P → Overlap P) (X : G → K) (x : Fin P → ℕ → K) : Prop :=
  ∀ p, ∀ i < (o p).numDomestic, ∀ u ∈ all verts, (o p).domesticToGlobal i = number u → x p i = X u

end Verif.OverlapMatrix.Vertex
