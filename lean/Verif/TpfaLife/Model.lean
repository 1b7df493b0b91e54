import Mathlib.Data.Nat.Notation
import Mathlib.Data.Int.Notation
/-
Model of the long-lived data of `opm/models/discretization/common/tpfalinearizer.hh`: when the matrix exists, the boundary
conditions and the coefficients of the connections which the linearizer keeps between linearizations.
-/

set_option autoImplicit false

namespace Verif.TpfaLife

/-! ### The matrix -/

/-- `jacobian` tells if `jacobian_` points to a matrix, `neighbours` if `neighborInfo_` is non-empty
(opm/models/discretization/common/tpfalinearizer.hh lines 893, 904). -/
structure State where
  jacobian : Bool
  neighbours : Bool
deriving DecidableEq, Repr

/-- A new linearizer (opm/models/discretization/common/tpfalinearizer.hh lines 116-121). -/
def init : State := { jacobian := false, neighbours := false }

inductive Op
  /-- `linearizeDomain`, for the whole domain or for a part of it -/
  | linearize
  /-- `eraseMatrix` -/
  | erase
  /-- `updateDiscretizationParameters` -/
  | updateParameters
deriving DecidableEq, Repr

/-- `createMatrix_` (opm/models/discretization/common/tpfalinearizer.hh lines 414-515) for a grid with at least one cell:
it returns early if the neighbours are known. -/
def createMatrix (s : State) : State :=
  if s.neighbours then s else { jacobian := true, neighbours := true }

/-- `resetSystem_` (opm/models/discretization/common/tpfalinearizer.hh lines 528-533) uses the pointer `jacobian_`:
`none` is undefined behaviour (null pointer). -/
def reset (s : State) : Option State := if s.jacobian then some s else none

/-- `initFirstIteration_` (opm/models/discretization/common/tpfalinearizer.hh lines 400-411). -/
def initFirstIteration (s : State) : Option State := reset (createMatrix s)

/-- `linearizeDomain` (opm/models/discretization/common/tpfalinearizer.hh lines 226-245), `eraseMatrix` (lines 159-162) and
`updateStoredTransmissibilities` (lines 868-887). -/
def step (s : State) : Op → Option State
  | .linearize => (if s.jacobian then some s else initFirstIteration s).bind reset
  | .erase => some { s with jacobian := false }
  | .updateParameters => if s.neighbours then some s else initFirstIteration s

def run (s : State) : List Op → Option State
  | [] => some s
  | op :: ops => (step s op).bind fun s => run s ops

/-! ### Boundary conditions -/

/-- The boundary conditions of the problem: `none` stands for `BCType::NONE`, `D` for type, rate and fluid state. -/
abbrev BC (Face D : Type) := Face → Option D

/-- `boundaryInfo_`: the faces which the linearizer knows, with the condition it uses. -/
abbrev Info (Face D : Type) := List (Face × Option D)

/-- The part of `createMatrix_` about boundary faces (opm/models/discretization/common/tpfalinearizer.hh lines 470-494);
`faces` are the boundary faces which have a direction.  `pvtRegionIdx` is not modelled. -/
def createInfo {Face D : Type} (nonTrivial : Bool) (faces : List Face) (bc : BC Face D) : Info Face D :=
  if nonTrivial then faces.map fun f => (f, bc f) else []

/-- `updateBoundaryConditionData` (opm/models/discretization/common/tpfalinearizer.hh lines 343-359). -/
def updateInfo {Face D : Type} (bc : BC Face D) (info : Info Face D) : Info Face D :=
  info.map fun e => (e.1, match bc e.1 with
    | none => e.2
    | some d => some d)

/-! ### Coefficients of connections -/

/-- The members of `ResidualNBInfo` which the problem provides and which may change
(opm/models/discretization/common/tpfalinearizer.hh lines 441-463). -/
structure Coeff where
  trans : ℤ
  thpres : ℤ
  inAlpha : ℤ
  outAlpha : ℤ
  diffusivity : ℤ
  dispersivity : ℤ
deriving DecidableEq, Repr

/-- `updateStoredTransmissibilities` (opm/models/discretization/common/tpfalinearizer.hh lines 877-886); a connection is a
pair of cells and `problem` what the problem provides for it. -/
def updateCoeffs (problem : ℕ × ℕ → Coeff) (stored : List ((ℕ × ℕ) × Coeff)) : List ((ℕ × ℕ) × Coeff) :=
  stored.map fun e => (e.1, { e.2 with trans := (problem e.1).trans })

/-- The part of `createMatrix_` about connections (opm/models/discretization/common/tpfalinearizer.hh lines 432-469). -/
def createCoeffs (problem : ℕ × ℕ → Coeff) (connections : List (ℕ × ℕ)) : List ((ℕ × ℕ) × Coeff) :=
  connections.map fun c => (c, problem c)

end Verif.TpfaLife
