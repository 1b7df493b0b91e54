import Mathlib.Algebra.Order.Field.Basic
import Mathlib.Algebra.BigOperators.Group.List.Basic

set_option autoImplicit false
/-
Model of the stencil of a cell-centred grid, opm/models/discretization/ecfv/ecfvstencil.hh.  The grid is a parameter: the list of the
intersections of each element in the order of `ibegin`.
-/
namespace Verif.Ecfv

/-- An intersection: `outside()` if `neighbor()`, unit outer normal and centre as opaque values of a type `V`, area, and
`indexInInside()`. -/
structure Intersection (E V K : Type) where
  outside : Option E
  normal : V
  center : V
  area : K
  indexInInside : ℤ
  deriving DecidableEq

/-- `EcfvSubControlVolumeFace`, opm/models/discretization/ecfv/ecfvstencil.hh lines 144-246; the interior index is always 0 (line 176). -/
structure Face (V K : Type) where
  exteriorIdx : ℕ
  normal : V
  integrationPos : V
  area : K
  dirId : ℤ
  deriving DecidableEq

/-- `static_cast<unsigned short>`. -/
def toShort (x : ℤ) : ℕ := (x % 65536).toNat

/-- The constructor of a face, opm/models/discretization/ecfv/ecfvstencil.hh lines 150-166. -/
def mkFace {E V K : Type} (i : Intersection E V K) (localNeighborIdx : ℤ) : Face V K :=
  ⟨toShort localNeighborIdx, i.normal, i.center, i.area, i.indexInInside⟩

/-- The stencil, opm/models/discretization/ecfv/ecfvstencil.hh lines 414-422: sub-control volumes are represented by their elements. -/
structure Stencil (E V K : Type) where
  elements : List E
  interior : List (Face V K)
  boundary : List (Face V K)
  deriving DecidableEq

variable {E V K : Type}

/-- One iteration of the loop of `updateTopology`, opm/models/discretization/ecfv/ecfvstencil.hh lines 276-290. -/
def addIntersection (s : Stencil E V K) (i : Intersection E V K) : Stencil E V K :=
  match i.outside with
  | some o =>
    let elements := s.elements ++ [o]
    { s with elements := elements, interior := s.interior ++ [mkFace i ((elements.length : ℤ) - 1)] }
  | none => { s with boundary := s.boundary ++ [mkFace i (-10000)] }

/-- The beginning of `updateTopology`, opm/models/discretization/ecfv/ecfvstencil.hh lines 266-276: the lists are cleared, and the
element is added. -/
def clearAndAdd (previous : Stencil E V K) (e : E) : Stencil E V K :=
  let s := { previous with elements := [] }
  let s := { s with elements := s.elements ++ [e] }
  { s with interior := [], boundary := [] }

/-- `updateTopology`, opm/models/discretization/ecfv/ecfvstencil.hh lines 264-293. -/
def updateTopology (grid : E → List (Intersection E V K)) (previous : Stencil E V K) (e : E) : Stencil E V K :=
  (grid e).foldl addIntersection (clearAndAdd previous e)

/-- `updatePrimaryTopology`, opm/models/discretization/ecfv/ecfvstencil.hh lines 293-300: the faces stay. -/
def updatePrimaryTopology (previous : Stencil E V K) (e : E) : Stencil E V K := { previous with elements := [e] }

/-- Directions of faces. -/
inductive Dir
  | xPlus | yPlus | zPlus
  deriving DecidableEq

/-- `faceDirFromDirId`, opm/models/discretization/ecfv/ecfvstencil.hh lines 219-239; `none` is an exception. -/
def faceDirFromDirId (dirId : ℤ) : Option Dir :=
  if dirId = -1 then none
  else if dirId = 0 ∨ dirId = 1 then some .xPlus
  else if dirId = 2 ∨ dirId = 3 then some .yPlus
  else if dirId = 4 ∨ dirId = 5 then some .zPlus
  else none

end Verif.Ecfv
