import Verif.GridComm.Model
import Mathlib.Algebra.BigOperators.Fin

/-
Volumes of degrees of freedom, the volume of the grid and its bounding box: the beginning of `FvBaseDiscretization::finishInit`
(opm/models/discretization/common/fvbasediscretization.hh lines 473-523) and of the constructor of `FvBaseProblem`
(opm/models/discretization/common/fvbaseproblem.hh lines 115-140).

Simplifications: numbers are exact; indices of degrees of freedom are within the arrays (the mapper sees to that); the sum, minimum
and maximum over all processes are given by their results.
-/

set_option autoImplicit false

namespace Verif.Volumes

open Verif.Mpi Verif.GridComm

variable {P : ℕ} {E K : Type}

/-- What `finishInit` sees of an element: whether it is in the interior of the part of this process, and its stencil: the index and
the volume within this element of each degree of freedom, the first `numPrimary` of which are primary
(opm/models/discretization/common/fvbasediscretization.hh lines 485-500). -/
structure Element (K : Type) where
  interior : Bool
  dofs : List (ℕ × K)
  numPrimary : ℕ

/-- `dofTotalVolume_` and `gridTotalVolume_` -/
structure Tally (K : Type) where
  volume : ℕ → K
  total : K

/-- The loop over the primary degrees of freedom of an element
(opm/models/discretization/common/fvbasediscretization.hh lines 496-504; there is no other element than those of the interior when
this is reached, so that the second test of `isInteriorElement` is always true) -/
def addElement [Add K] (s : Tally K) (e : Element K) : Tally K :=
  (e.dofs.take e.numPrimary).foldl
    (fun s d => { volume := Function.update s.volume d.1 (s.volume d.1 + d.2), total := s.total + d.2 }) s

/-- The loop over the elements of the process (opm/models/discretization/common/fvbasediscretization.hh lines 475-505) -/
def tally [Add K] [Zero K] (l : List (Element K)) : Tally K :=
  l.foldl (fun s e => if e.interior then addElement s e else s) { volume := fun _ => 0, total := 0 }

/-- `isLocalDof_` (opm/models/discretization/common/fvbasediscretization.hh lines 507-512) -/
def isLocalDof [Zero K] [DecidableEq K] (s : Tally K) (i : ℕ) : Bool := decide (s.volume i ≠ 0)

/-- What the processes do to sum up `dofTotalVolume_` (opm/models/discretization/common/fvbasediscretization.hh lines 514-520) -/
def sumVolumes [Add K] [Zero K] (g : Interface P E) (elements : Fin P → List (Element K)) : System (Fin P) (ℕ → K) (List K) :=
  start (communicate g scatterSum) fun p => (tally (elements p)).volume

/-- `gridTotalVolume_` (opm/models/discretization/common/fvbasediscretization.hh lines 522-523) -/
def gridTotalVolume [Add K] [Zero K] (elements : Fin P → List (Element K)) : K :=
  (List.ofFn fun p => (tally (elements p)).total).sum

/-! ### The bounding box -/

/-- `boundingBoxMin_` and `boundingBoxMax_`; `n` is `dimWorld` -/
structure Box (n : ℕ) (K : Type) where
  lower : Fin n → K
  upper : Fin n → K

/-- The box before the loop (opm/models/discretization/common/fvbaseproblem.hh lines 120-121); `big` is the largest number -/
def noBox [Neg K] (n : ℕ) (big : K) : Box n K := { lower := fun _ => big, upper := fun _ => -big }

/-- The box after the vertex with the coordinates `x`; only the first `dim` coordinates are looked at
(opm/models/discretization/common/fvbaseproblem.hh lines 128-131) -/
def grow [LinearOrder K] {n : ℕ} (dim : ℕ) (b : Box n K) (x : Fin n → K) : Box n K where
  lower i := if (i : ℕ) < dim then stdMin (b.lower i) (x i) else b.lower i
  upper i := if (i : ℕ) < dim then stdMax (b.upper i) (x i) else b.upper i

/-- The box of one process (opm/models/discretization/common/fvbaseproblem.hh lines 125-132) -/
def localBox [LinearOrder K] [Neg K] {n : ℕ} (dim : ℕ) (big : K) (vertices : List (Fin n → K)) : Box n K :=
  vertices.foldl (grow dim) (noBox n big)

/-- The box on the process `p`, after its first `dim` coordinates have been replaced by the extrema of all processes
(opm/models/discretization/common/fvbaseproblem.hh lines 134-138) -/
def box [LinearOrder K] [Neg K] {n : ℕ} (dim : ℕ) (big : K) (vertices : Fin (P + 1) → List (Fin n → K)) (p : Fin (P + 1)) :
    Box n K where
  lower i := if (i : ℕ) < dim
    then (List.ofFn fun q => (localBox dim big (vertices q)).lower i).foldl stdMin ((localBox dim big (vertices 0)).lower i)
    else (localBox dim big (vertices p)).lower i
  upper i := if (i : ℕ) < dim
    then (List.ofFn fun q => (localBox dim big (vertices q)).upper i).foldl stdMax ((localBox dim big (vertices 0)).upper i)
    else (localBox dim big (vertices p)).upper i

end Verif.Volumes
