import Verif.GridComm.Model
import Mathlib.Algebra.BigOperators.Fin

/-
The initial solution and the residual of a grid which is spread over processes: `applyInitialSolution` and `globalResidual` of
`FvBaseDiscretization` and `syncOverlap` of the discretizations.

Simplifications: numbers are exact; what a thread adds to the residual under the mutex is one step, so that the threads of a process
only determine the order of elements; the sum over all processes is given by its result.
-/

set_option autoImplicit false

namespace Verif.Initial

open Verif.Mpi Verif.GridComm

variable {P : ℕ} {E V : Type}

/-- What the loops see of an element: whether it is in the interior of the part of this process, and for each of its primary degrees
of freedom the index of it and what the problem or the local residual says there
(opm/models/discretization/common/fvbasediscretization.hh lines 558-577 and 899-916) -/
structure Element (V : Type) where
  interior : Bool
  dofs : List (ℕ × V)

/-- The loop over the elements in `applyInitialSolution`
(opm/models/discretization/common/fvbasediscretization.hh lines 551-579): everything is zero at first, then each degree of freedom of an
interior element is assigned its initial values, which `supplementInitialSolution_` may have added to. -/
def initialLocal [Zero V] (l : List (Element V)) : ℕ → V :=
  l.foldl (fun u e => if e.interior then e.dofs.foldl (fun u d => Function.update u d.1 d.2) u else u) fun _ => 0

/-- `applyInitialSolution` up to the end of `syncOverlap` for cell-centred grids
(opm/models/discretization/common/fvbasediscretization.hh line 582; opm/models/discretization/ecfv/ecfvdiscretization.hh lines 189-203) -/
def initialCells [Zero V] (g : Interface P E) (elements : Fin P → List (Element V)) : System (Fin P) (ℕ → V) (List V) :=
  start (communicate g scatterGhostSync) fun p => initialLocal (elements p)

/-- `applyInitialSolution` up to the end of `syncOverlap` for vertex-centred grids, where the latter does nothing
(opm/models/discretization/common/fvbasediscretization.hh lines 582 and 1330-1331) -/
def initialVertices [Zero V] (elements : Fin P → List (Element V)) (p : Fin P) : ℕ → V := initialLocal (elements p)

/-- The solutions of all time levels at the end of `applyInitialSolution`
(opm/models/discretization/common/fvbasediscretization.hh lines 584-586); `u` is that of the current one, `old` what all levels were
before. -/
def levels (historySize : ℕ) (old : ℕ → ℕ → V) (u : ℕ → V) : ℕ → ℕ → V :=
  (List.range' 1 (historySize - 1)).foldl (fun sol timeIdx => Function.update sol timeIdx (sol 0)) (Function.update old 0 u)

/-- The loop over the elements in `globalResidual` (opm/models/discretization/common/fvbasediscretization.hh lines 884-917) -/
def residualLocal [Zero V] [Add V] (l : List (Element V)) : ℕ → V :=
  l.foldl (fun r e => if e.interior then e.dofs.foldl (fun r d => Function.update r d.1 (r d.1 + d.2)) r else r) fun _ => 0

/-- `globalResidual` up to the end of the communication (opm/models/discretization/common/fvbasediscretization.hh lines 919-924) -/
def residual [Zero V] [Add V] (g : Interface P E) (elements : Fin P → List (Element V)) : System (Fin P) (ℕ → V) (List V) :=
  start (communicate g scatterSum) fun p => residualLocal (elements p)

/-- `two_norm2` of an entry of a vector -/
def entryNorm2 {K : Type} [CommRing K] {m : ℕ} (v : Fin m → K) : K := ∑ k, v k * v k

/-- The square of what `globalResidual` returns (opm/models/discretization/common/fvbasediscretization.hh lines 926-933): `size p` is
the length of the vector on the process `p` -/
def norm2 {K : Type} [CommRing K] {m : ℕ} (size : Fin P → ℕ) (dest : Fin P → ℕ → Fin m → K) : K :=
  ∑ p, ((List.range (size p)).map fun i => entryNorm2 (dest p i)).sum

end Verif.Initial
