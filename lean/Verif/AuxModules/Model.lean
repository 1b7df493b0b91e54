import Mathlib.Logic.Function.Basic
import Mathlib.Data.Nat.Notation
/-
Model of the bookkeeping of auxiliary equations: `opm/models/discretization/common/fvbasediscretization.hh`,
`opm/models/discretization/common/baseauxiliarymodule.hh`.
-/

set_option autoImplicit false

namespace Verif.AuxModules

/-- Modules are named by numbers; `numDofs m` degrees of freedom belong to module `m`
(`BaseAuxiliaryModule::numDofs`, opm/models/discretization/common/baseauxiliarymodule.hh line 73). -/
structure State where
  /-- `auxEqModules_` -/
  modules : List ℕ
  /-- `dofOffset_` of each module -/
  offset : ℕ → ℕ
  /-- the common size of the solution vectors -/
  size : ℕ

/-- `numAuxiliaryDof` (opm/models/discretization/common/fvbasediscretization.hh lines 1486-1495). -/
def numAux (numDofs : ℕ → ℕ) : List ℕ → ℕ
  | [] => 0
  | m :: ms => numDofs m + numAux numDofs ms

/-- `numTotalDof` (opm/models/discretization/common/fvbasediscretization.hh lines 1500-1501). -/
def numTotal (numGrid : ℕ) (numDofs : ℕ → ℕ) (s : State) : ℕ := numGrid + numAux numDofs s.modules

/-- The solution vectors have an entry per degree of freedom of the grid at first. -/
def init (numGrid : ℕ) : State := { modules := [], offset := fun _ => 0, size := numGrid }

inductive Op
  | add (m : ℕ)
  | clear
deriving DecidableEq, Repr

/-- `addAuxiliaryModule` (opm/models/discretization/common/fvbasediscretization.hh lines 1746-1764) and
`clearAuxiliaryModules` (lines 1771-1776), which also erases the matrices but does not touch the solution vectors. -/
def step (numGrid : ℕ) (numDofs : ℕ → ℕ) (s : State) : Op → State
  | .add m =>
    let s := { s with offset := Function.update s.offset m (numTotal numGrid numDofs s), modules := s.modules ++ [m] }
    { s with size := numTotal numGrid numDofs s }
  | .clear => { s with modules := [] }

def exec (numGrid : ℕ) (numDofs : ℕ → ℕ) (ops : List Op) : State := ops.foldl (step numGrid numDofs) (init numGrid)

/-- `localToGlobalDof` (opm/models/discretization/common/baseauxiliarymodule.hh lines 93-97). -/
def localToGlobal (s : State) (m i : ℕ) : ℕ := s.offset m + i

end Verif.AuxModules
