import Mathlib.Data.Fin.Basic
import Mathlib.Data.List.Basic
import Mathlib.Logic.Function.Basic
import Mathlib.Logic.Relation

/-
How processes agree on failures.

At many places a process tries something, catches exceptions, and all processes compute the minimum of a flag (`MPI_Allreduce` or
`comm().min`) before they throw or go on.  A process is seen here as a list of such places; what is tried is an outcome, which is
data.  Reductions are matched by MPI in the order in which the processes call them, whatever they are called for.

Other communication in between (synchronising vectors, scalar products), in which all processes take part unless they have left
before, is left out.
-/

set_option autoImplicit false

namespace Verif.Agree

/-- Exceptions: those of Dune (which are derived from `std::exception`), `Opm::NumericalProblem` and others which are derived from
`std::exception`, and others. -/
inductive Exn where
  | dune | numerical | std | foreign
deriving DecidableEq

/-- What is tried succeeds or throws. -/
abbrev Outcome := Option Exn

/-- What a process does after it has tried: take part in a reduction with the flag, or go on, or leave with an exception. -/
inductive Hand where
  | reduce (flag : Bool)
  | goOn
  | leave
deriving DecidableEq

/-- A place in the code: what the process with this rank does for each outcome. -/
abbrev Site (P : ℕ) := Fin P → Outcome → Hand

variable {P : ℕ}

/-- A place which catches the exceptions `caught` and then takes the minimum. -/
def guarded (caught : Exn → Bool) : Site P := fun _ o =>
  match o with
  | none => .reduce true
  | some e => if caught e then .reduce false else .leave

/-- `catch (...)` -/
def catchAll (_ : Exn) : Bool := true

/-- `catch (const std::exception&)` -/
def catchStd (e : Exn) : Bool := e ≠ .foreign

/-- `catch (const Dune::Exception&)` -/
def catchDune (e : Exn) : Bool := e = .dune

/-- `OverlappingPreconditioner::pre` (opm/simulators/linalg/overlappingpreconditioner.hh:62-99) with MPI -/
def pre : Site P := guarded catchAll

/-- `OverlappingPreconditioner::post` (opm/simulators/linalg/overlappingpreconditioner.hh:143-179) with MPI -/
def post : Site P := guarded catchAll

/-- `OverlappingPreconditioner::apply` (opm/simulators/linalg/overlappingpreconditioner.hh:101-141) with MPI: processes without
peers do not take part in the reduction. -/
def apply (hasPeers : Fin P → Bool) : Site P := fun p o =>
  if hasPeers p then guarded catchAll p o
  else match o with
    | none => .goOn
    | some _ => .leave

/-- `preparePreconditioner_` (opm/simulators/linalg/parallelbasebackend.hh:310-333) -/
def preparePreconditioner : Site P := guarded catchDune

/-- `NewtonMethod::beginIteration_` (opm/models/nonlinear/newtonmethod.hh:532-555) -/
def beginIteration : Site P := guarded catchStd

/-- `linearizeDomain` of the general linearizer (opm/models/discretization/common/fvbaselinearizer.hh:218-241) and of the one for
two-point fluxes (opm/models/discretization/common/tpfalinearizer.hh:190-214) -/
def linearizeDomain : Site P := guarded catchAll

/-- `linearizeAuxiliaryEquations` for one module (opm/models/discretization/common/fvbaselinearizer.hh:251-276,
opm/models/discretization/common/tpfalinearizer.hh:255-280) -/
def linearizeAuxiliary : Site P := guarded catchStd

/-- `NewtonMethod::postSolve_` for one module (opm/models/nonlinear/newtonmethod.hh:622-649) -/
def postSolve : Site P := guarded catchStd

/-- `NewtonMethod::update_` (opm/models/nonlinear/newtonmethod.hh:665-707), which throws if the update of this process is not
finite, and asks nobody else.  It is used by all models except for the black-oil one. -/
def update : Site P := fun _ o =>
  match o with
  | none => .goOn
  | some _ => .leave

/-- `BlackOilNewtonMethod::update_` (opm/models/blackoil/blackoilnewtonmethod.hh:176-200) -/
def blackOilUpdate : Site P := guarded catchAll

/-- `NewtonMethod::endIteration_` (opm/models/nonlinear/newtonmethod.hh:755-776) -/
def endIteration : Site P := guarded catchStd

/-- The places of one Newton iteration (opm/models/nonlinear/newtonmethod.hh:262-347) with `n` auxiliary modules, in which the
linear solver needs `k` applications of its preconditioner (opm/simulators/linalg/bicgstabsolver.hh, with `hasPeers`). -/
def newtonIteration (update : Site P) (hasPeers : Fin P → Bool) (n k : ℕ) : List (Site P) :=
  [beginIteration, linearizeDomain] ++ List.replicate n linearizeAuxiliary ++
    [preparePreconditioner, pre] ++ List.replicate k (apply hasPeers) ++ [post] ++
    List.replicate n postSolve ++ [update, endIteration]

/-- A process: the number of places it has passed, whether it waits for a reduction, whether and how it has ended (`true`: with an
exception), and the flags which it has given to reductions so far. -/
structure Proc where
  pos : ℕ
  inside : Bool
  ended : Option Bool
  given : List Bool

/-- At the start -/
def Proc.init : Proc := { pos := 0, inside := false, ended := none, given := [] }

/-- A process after a reduction with this result -/
def Proc.afterReduction (r : Proc) (all : Bool) : Proc :=
  if all then { r with pos := r.pos + 1, inside := false } else { r with inside := false, ended := some true }

/-- What a process does at a place -/
def Proc.tryIt (r : Proc) : Hand → Proc
  | .reduce flag => { r with inside := true, given := r.given ++ [flag] }
  | .goOn => { r with pos := r.pos + 1 }
  | .leave => { r with ended := some true }

/-- One step of one process; `outcome p k` is the outcome of what the process `p` tries at the place `k`. -/
inductive Step (sites : List (Site P)) (outcome : Fin P → ℕ → Outcome) : (Fin P → Proc) → (Fin P → Proc) → Prop where
  | tryIt (s : Fin P → Proc) (p : Fin P) (site : Site P) (h : (s p).ended = none) (hi : (s p).inside = false)
    (hs : sites[(s p).pos]? = some site) :
    Step sites outcome s (Function.update s p ((s p).tryIt (site p (outcome p (s p).pos))))
  | finish (s : Fin P → Proc) (p : Fin P) (h : (s p).ended = none) (hi : (s p).inside = false)
    (hs : sites[(s p).pos]? = none) : Step sites outcome s (Function.update s p { s p with ended := some false })
  /-- a reduction returns when all processes take part in it, with the minimum of their flags -/
  | reduced (s : Fin P → Proc) (p : Fin P) (all : Bool) (h : (s p).ended = none) (hi : (s p).inside = true)
    (hall : ∀ q, (s p).given.length ≤ (s q).given.length)
    (hmin : all = true ↔ ∀ q, (s q).given[(s p).given.length - 1]? = some true) :
    Step sites outcome s (Function.update s p ((s p).afterReduction all))

/-- The states which can be reached -/
def Reach (sites : List (Site P)) (outcome : Fin P → ℕ → Outcome) : (Fin P → Proc) → Prop :=
  Relation.ReflTransGen (Step sites outcome) (fun _ => Proc.init)

end Verif.Agree
