import Verif.FvLin.Model
import Mathlib.Algebra.Order.Group.Unbundled.Abs

set_option autoImplicit false

/-
The intersection which boundary conditions see, and the check of conservation.

Models `opm/models/discretization/common/fvbaseboundarycontext.hh`, the loops over boundary faces of
`opm/models/discretization/common/fvbaselocalresidual.hh` and `checkConservativeness` and `globalStorage` of
`opm/models/discretization/common/fvbasediscretization.hh`.
-/
namespace Verif.Boundary

open Verif.FvLin

/-- An intersection of an element: its number, whether it has a neighbour, whether it is on the boundary of the domain (at the border of a
process it may be neither), and its number of corners. -/
structure Isect where
  id : ℕ
  neighbor : Bool
  boundary : Bool
  corners : ℕ
  deriving DecidableEq

/-- The boundary faces of a cell-centred stencil, by the intersection they belong to: opm/models/discretization/ecfv/ecfvstencil.hh lines
277-290. -/
def cellFaces (is : List Isect) : List Isect := is.filter fun i => !i.neighbor

/-- The boundary faces of a vertex-centred stencil: one for each corner of an intersection on the boundary,
opm/models/discretization/vcfv/vcfvstencil.hh lines 960-1012. -/
def vertexFaces (is : List Isect) : List Isect :=
  is.flatMap fun i => if i.boundary then List.replicate i.corners i else []

/-- `increment`: the intersections from the iterator on; opm/models/discretization/common/fvbaseboundarycontext.hh lines 75-87. -/
def increment : List Isect → List Isect
  | [] => []
  | _ :: rest => rest.dropWhile fun i => i.neighbor

/-- The loop of `evalBoundary_`: what `intersection(faceIdx)` is for each face, `none` past the last intersection;
opm/models/discretization/common/fvbaselocalresidual.hh lines 431-440, opm/models/discretization/common/fvbaseboundarycontext.hh lines 253-254. -/
def loop : ℕ → List Isect → List (Option Isect)
  | 0, _ => []
  | n + 1, it => it.head? :: loop n (increment it)

/-- `evalBoundary_` for `n` boundary faces, opm/models/discretization/common/fvbaselocalresidual.hh lines 419-440 (and the constructor,
opm/models/discretization/common/fvbaseboundarycontext.hh lines 70-73). -/
def seen (n : ℕ) (is : List Isect) : List (Option Isect) :=
  match is with
  | [] => loop n []
  | i :: rest => if i.neighbor then loop n (increment (i :: rest)) else loop n (i :: rest)

/-- `checkConservativeness`, opm/models/discretization/common/fvbasediscretization.hh lines 1033-1054: the iterator is not moved. -/
def seenByCheck (n : ℕ) (is : List Isect) : List (Option Isect) := List.replicate n is.head?

section
variable {K M : Type} [Field K] [LinearOrder K]

/-- `globalStorage` for the solution of the current time index, opm/models/discretization/common/fvbasediscretization.hh lines 943-986 with
`evalStorage`, opm/models/discretization/common/fvbaselocalresidual.hh lines 204-247.  One process, one quantity. -/
def storageEnd (es : List (Elem K K M)) : K :=
  (es.map fun e => ((List.range e.numPrimary).map fun d => e.volume d * (e.storage d).1).sum).sum

/-- `globalStorage` for the solution at the beginning of the step; the volume times the extrusion factor is that of this time,
opm/models/discretization/common/fvbaselocalresidual.hh lines 248-276. -/
def storageBegin (oldVolume : Elem K K M → ℕ → K) (es : List (Elem K K M)) : K :=
  (es.map fun e => ((List.range e.numPrimary).map fun d => oldVolume e d * e.oldStorage d).sum).sum

/-- The rate of sources and boundary conditions, opm/models/discretization/common/fvbasediscretization.hh lines 1021-1078. -/
def totalRate (es : List (Elem K K M)) : K :=
  (es.map fun e => (e.boundary.map fun b => (b.2 0).1).sum +
    ((List.range e.numPrimary).map fun d => - e.volume d * (e.source d).1).sum).sum

/-- The storage rate, opm/models/discretization/common/fvbasediscretization.hh lines 1087-1089. -/
def storageRate (oldVolume : Elem K K M → ℕ → K) (dt : K) (es : List (Elem K K M)) : K :=
  (storageBegin oldVolume es - storageEnd es) / dt

/-- The assertion, opm/models/discretization/common/fvbasediscretization.hh lines 1102-1107. -/
def accepts (tolerance storageRate totalRate : K) : Prop :=
  |storageRate - totalRate| ≤ max tolerance ((|storageRate| + totalRate) * tolerance)

instance (t s r : K) : Decidable (accepts t s r) := by unfold accepts; infer_instance

/-- The tolerance if none is given, opm/models/discretization/common/fvbasediscretization.hh lines 1005-1010. -/
def defaultTolerance (newtonTolerance gridTotalVolume : K) : K := newtonTolerance * gridTotalVolume * 1000

end

end Verif.Boundary
