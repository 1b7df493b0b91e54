import Mathlib.Data.List.Basic
import Mathlib.Data.Int.Notation

/-
The life of the linear system of equations: the matrix of the linearizer, the overlapping matrix and vectors of the linear solver, and
its preconditioner, while the Newton method is run, auxiliary modules are added and removed and the grid is adapted.

opm/simulators/linalg/parallelbasebackend.hh, opm/simulators/linalg/istlpreconditionerwrappers.hh,
opm/simulators/linalg/istlsolverwrappers.hh, opm/models/discretization/common/fvbasediscretization.hh,
opm/models/discretization/common/fvbasediscretizationfemadapt.hh, opm/models/discretization/common/fvbaselinearizer.hh,
opm/models/nonlinear/newtonmethod.hh and opm/models/io/basevanguard.hh.

Only the structure of matrices and vectors is kept here, not their values.  A pointer is `none` if it is null.  `none` as the result of
a function is undefined behaviour: a null pointer is dereferenced, an object is deleted twice, or a matrix is accessed where it has no
entries.
-/

set_option autoImplicit false

namespace Verif.Solver

/-- What decides about the rows and entries of a matrix: how often the grid has been changed, and the auxiliary modules. -/
structure Shape where
  grid : ℕ
  modules : List ℕ
deriving DecidableEq

/-- * `grid` is the number of changes of the grid (`gridSequenceNumber`, opm/models/io/basevanguard.hh lines 86-100, with dune-fem;
  without it the grid does not change, opm/models/discretization/common/fvbasediscretization.hh lines 1351-1356), `modules` is
  `auxEqModules_`.
* `jacobian` is the matrix of the linearizer, with its residual.
* `seq`, `matrix`, `b` and `x` are `gridSequenceNumber_`, `overlappingMatrix_`, `overlappingb_` and `overlappingx_`
  (opm/simulators/linalg/parallelbasebackend.hh lines 377-384).
* `prec` is `seqPreCond_` (opm/simulators/linalg/istlpreconditionerwrappers.hh line 189), which is not initialised.
* `live` lists the preconditioners in memory.  `made` and `built` count the preconditioners and overlapping matrices which were made. -/
structure State where
  grid : ℕ
  modules : List ℕ
  jacobian : Option Shape
  seq : ℤ
  matrix : Option Shape
  b : Option Shape
  x : Option Shape
  prec : Option ℕ
  live : List ℕ
  made : ℕ
  built : ℕ

/-- The constructor, opm/simulators/linalg/parallelbasebackend.hh lines 137-145. -/
def init : State :=
  { grid := 0, modules := [], jacobian := none, seq := -1, matrix := none, b := none, x := none, prec := none, live := [], made := 0
    built := 0 }

/-- The shape which a matrix needs now -/
def State.shape (s : State) : Shape := ⟨s.grid, s.modules⟩

/-- `addAuxiliaryModule`, opm/models/discretization/common/fvbasediscretization.hh lines 1746-1764 -/
def addModule (m : ℕ) (s : State) : State := { s with modules := s.modules ++ [m] }

/-- `cleanup_` and `eraseMatrix`, opm/simulators/linalg/parallelbasebackend.hh lines 173-174, 297-307; `NewtonMethod::eraseMatrix`,
opm/models/nonlinear/newtonmethod.hh lines 478-479 -/
def cleanup (s : State) : State := { s with matrix := none, b := none, x := none }

/-- `clearAuxiliaryModules`, opm/models/discretization/common/fvbasediscretization.hh lines 1771-1776 -/
def clearModules (s : State) : State := cleanup { s with modules := [], jacobian := none }

/-- `adaptGrid`, opm/models/discretization/common/fvbasediscretizationfemadapt.hh lines 118-151, if the grid changes: the linearizer is
initialised, which erases its matrix (opm/models/discretization/common/fvbaselinearizer.hh lines 145-157). -/
def adapt (s : State) : State := { s with grid := s.grid + 1, jacobian := none }

/-- `linearize`, opm/models/discretization/common/fvbaselinearizer.hh lines 181-185, 200-212, 404-447: the matrix is made if there is none.
If there is one for other modules than the present ones, their equations are written to entries which do not exist. -/
def linearize (s : State) : Option State :=
  match s.jacobian with
  | none => some { s with jacobian := some s.shape }
  | some sh => if sh = s.shape then some s else none

/-- The parts of `prepare` which may fail -/
inductive Part where
  | borderList
  | matrix
  | b
  | x
deriving DecidableEq

/-- `prepare`, opm/simulators/linalg/parallelbasebackend.hh lines 182-212, until one of the parts throws an exception.  The matrix of the
linearizer exists when it is called. -/
def prepare (fail : Option Part) (s : State) : State :=
  if s.seq = (s.grid : ℤ) ∧ s.matrix.isSome then s
  else
    let s := { cleanup s with seq := s.grid }
    if fail = some .borderList ∨ fail = some .matrix then s
    else
      let s := { s with matrix := s.jacobian, built := s.built + 1 }
      if fail = some .b then s
      else
        let s := { s with b := s.matrix }
        if fail = some .x then s
        else { s with x := s.b }

/-- `setResidual` and `getResidual`, opm/simulators/linalg/parallelbasebackend.hh lines 219-236: the vector of the linearizer is copied
to the overlapping one and back. -/
def exchangeResidual (s : State) : Option State := if s.b.isSome ∧ s.b = s.jacobian then some s else none

/-- `setMatrix`, opm/simulators/linalg/parallelbasebackend.hh lines 244-248 -/
def setMatrix (s : State) : Option State := if s.matrix.isSome ∧ s.matrix = s.jacobian then some s else none

/-- How `solve` ends: the preconditioner of this process throws an exception, or that of another one does, or preparing or running the
solver throws an exception, or nothing does. -/
inductive Ending where
  | precFails
  | otherPrecFails
  | throws
  | returns
deriving DecidableEq

/-- `PreconditionerWrapper::cleanup`, opm/simulators/linalg/istlpreconditionerwrappers.hh lines 185-186 -/
def deletePrec (s : State) : Option State :=
  match s.prec with
  | none => none
  | some k => if k ∈ s.live then some { s with live := s.live.erase k } else none

/-- `solve`, opm/simulators/linalg/parallelbasebackend.hh lines 255-290, with `preparePreconditioner_`, lines 309-333, and
`PreconditionerWrapper::prepare`, opm/simulators/linalg/istlpreconditionerwrappers.hh lines 173-180.  The guards (see `Verif.Guard`) are
made after the preconditioner, so that it is deleted if one of the later parts throws an exception or none does. -/
def solve (o : Ending) (s : State) : Option State :=
  if s.matrix.isSome ∧ s.b = s.matrix ∧ s.x = s.matrix then
    if o = .precFails then some s
    else
      let s := { s with prec := some s.made, live := s.made :: s.live, made := s.made + 1 }
      if o = .otherPrecFails then some s else deletePrec s
  else none

/-- How far an iteration of the Newton method gets: an exception while linearizing or while preparing the solver, the end of the method
because it has converged or an exception before the system is solved, or `solve`. -/
inductive Cut where
  | linearizing
  | preparing (p : Part)
  | beforeSolve
  | solve (o : Ending)

/-- The rest of an iteration after the linearization, opm/models/nonlinear/newtonmethod.hh lines 290-343.  If nothing is to be prepared
nothing fails when it is. -/
def afterLinearize (c : Cut) (s : State) : Option State :=
  match c with
  | .linearizing => some s
  | .preparing p => if s.seq = (s.grid : ℤ) ∧ s.matrix.isSome then exchangeResidual s else some (prepare (some p) s)
  | .beforeSolve => exchangeResidual (prepare none s)
  | .solve o => ((exchangeResidual (prepare none s)).bind setMatrix).bind (solve o)

/-- An iteration, opm/models/nonlinear/newtonmethod.hh lines 270-343 -/
def iteration (c : Cut) (s : State) : Option State := (linearize s).bind (afterLinearize c)

/-- What happens in the course of a run -/
inductive Op where
  | adapt
  | addModule (m : ℕ)
  | clearModules
  | erase
  | iteration (c : Cut)

def step (s : State) : Op → Option State
  | .adapt => some (adapt s)
  | .addModule m => some (addModule m s)
  | .clearModules => some (clearModules s)
  | .erase => some (cleanup s)
  | .iteration c => iteration c s

def run (ops : List Op) : Option State := ops.foldlM step init

end Verif.Solver
