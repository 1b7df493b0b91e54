import Verif.Tpfa.Model
import Verif.ParSolve.BlockModel

/-
The linear system of one of several processes: cell-centred finite volumes (`EcfvDiscretization`) on the part of the grid which the process
has.

Models the neighbours and boundary faces which the linearizers collect on a process
(opm/models/discretization/common/tpfalinearizer.hh lines 409-499, opm/models/discretization/ecfv/ecfvstencil.hh lines 264-292,
opm/models/discretization/common/fvbaselinearizer.hh lines 540-575 with opm/models/discretization/ecfv/ecfvdiscretization.hh line 130: copies are
linearized as well).  What they do with them is `Verif.Tpfa` and `Verif.FvLin`.

Simplifications: no auxiliary equations and no constraints; numbers are exact.  The values which the local residual has for a
cell or a face are arbitrary functions of the cell or the face and the primary variables of the cells.
-/

set_option autoImplicit false

namespace Verif.Hybrid

open Verif.ParSolve.Block

/-- A grid with cells of type `G` and connections of type `C`, and what the model, the problem and the local residual say about its cells and
connections, for the state of the problem (`X`), the time step size (`K`) and the primary variables (`V`) of the cells concerned: values and
derivatives with respect to the (first) cell -/
structure Flow (G C : Type) (E : ℕ) (K V X : Type) where
  /-- the cells behind the faces of a cell, and the data of the connections
  (opm/models/discretization/common/tpfalinearizer.hh lines 436-473) -/
  neighbours : G → List (G × C)
  /-- `faceArea` -/
  area : C → K
  /-- `dofTotalVolume` -/
  volume : G → K
  /-- `computeStorage` -/
  storage : X → G → V → Blk E K × Mat E K
  /-- `computeFlux` from one cell to another -/
  flux : X → K → G → G → C → V → V → Blk E K × Mat E K
  /-- `computeSource` -/
  source : X → K → G → V → Blk E K × Mat E K
  /-- faces at the boundary of the domain: whether there is no condition, area, `computeBoundaryFlux` -/
  boundary : X → K → G → V → List (Bool × K × (Blk E K × Mat E K))
  /-- what this is for a face behind which there is a cell which the process does not have: the stencil takes it for a face at the boundary
  (opm/models/discretization/ecfv/ecfvstencil.hh lines 283-290) -/
  cutFace : X → K → G → C → V → Bool × K × (Blk E K × Mat E K)
  /-- whether updating the intensive quantities of the cell succeeds -/
  works : X → K → G → V → Bool
  /-- `eqWeight` -/
  weight : X → K → G → Fin E → K
  /-- `updatePrimaryVariables_` -/
  update : X → K → G → V → Blk E K → V

variable {G C K V X : Type} {E : ℕ} [DecidableEq G]

/-- The connections of a cell to cells which the process has, with their indices (opm/models/discretization/common/tpfalinearizer.hh lines
427-473, opm/models/discretization/ecfv/ecfvstencil.hh lines 283-287) -/
def localNeighbours (f : Flow G C E K V X) (cells : List G) (c : G) : List (ℕ × C) :=
  (f.neighbours c).filterMap fun e => if e.1 ∈ cells then some (cells.idxOf e.1, e.2) else none

/-- The boundary faces of the cell number `i` on a process: those at the boundary of the domain, and those where the part of the process
ends (opm/models/discretization/common/tpfalinearizer.hh lines 474-499, opm/models/discretization/ecfv/ecfvstencil.hh lines 283-290).  (In
the code they are in the order of the intersections.) -/
def localBoundary (f : Flow G C E K V X) (cells : List G) (own : X) (dt : K) (i : ℕ) (c : G) (v : V) :
    List (Tpfa.BFace K (Blk E K) (Mat E K)) :=
  (f.boundary own dt c v ++ ((f.neighbours c).filter fun e => e.1 ∉ cells).map fun e => f.cutFace own dt c e.2 v).map
    fun b => { cell := i, none := b.1, area := b.2.1, flux := b.2.2 }

variable [Field K]

/-- What `linearize_` asks for on a process with the cells `cells`, the solution `x` and the solution `y` of the previous time level
(opm/models/discretization/common/tpfalinearizer.hh lines 711-866) -/
def localNet (f : Flow G C E K V X) (cells : List G) (own : X) (dt : K) (x y : ℕ → V) : Tpfa.Net K (Blk E K) (Mat E K) C where
  numCells := cells.length
  nb i := (cells[i]?).elim [] (localNeighbours f cells)
  area := f.area
  flux i j k := (cells[i]?).elim 0 fun c => (cells[j]?).elim 0 fun c' => f.flux own dt c c' k (x i) (x j)
  volume i := (cells[i]?).elim 0 f.volume
  dt := dt
  storage i := (cells[i]?).elim 0 fun c => f.storage own c (x i)
  oldStorage i := (cells[i]?).elim 0 fun c => (f.storage own c (y i)).1
  source i := (cells[i]?).elim 0 fun c => f.source own dt c (x i)
  boundary := (List.range cells.length).flatMap fun i => (cells[i]?).elim [] fun c => localBoundary f cells own dt i c (x i)

end Verif.Hybrid
