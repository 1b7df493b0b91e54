import Mathlib.Algebra.Order.Field.Basic
import Mathlib.Algebra.Order.Group.Unbundled.Abs

set_option autoImplicit false
/-
Model of the Newton method: `/repo/opm/models/nonlinear/newtonmethod.hh` (`apply`, `proceed_`, `preSolve_`,
`update_`, `failed_`, `suggestTimeStepSize`).

The linearizer, the linear solver and the problem are an environment: arbitrary functions which may fail at any
point.  Scalars are elements of an arbitrary linearly ordered field together with one undefined value (NaN);
infinities and rounding are not modelled.
-/
namespace Verif.Newton

/-- A floating point value: a number or NaN. -/
inductive Fl (K : Type) where
  | num (x : K)
  | nan
  deriving DecidableEq

namespace Fl
variable {K : Type} [Field K] [LinearOrder K]

/-- `a < b`: false if one of them is NaN. -/
def lt : Fl K → Fl K → Bool
  | num a, num b => decide (a < b)
  | _, _ => false

/-- `a <= b`: false if one of them is NaN. -/
def le : Fl K → Fl K → Bool
  | num a, num b => decide (a ≤ b)
  | _, _ => false

/-- `std::abs`. -/
def abs : Fl K → Fl K
  | num a => num |a|
  | nan => nan

/-- `a * b` with a number `b`. -/
def scale : Fl K → K → Fl K
  | num a, b => num (a * b)
  | nan, _ => nan

/-- `std::max(a, b)`, i.e. `(a < b) ? b : a`. -/
def max (a b : Fl K) : Fl K := if a.lt b then b else a
end Fl

/-- A vector with one value per degree of freedom (only the first `numTotalDof` entries are meaningful). -/
abbrev Vec (V : Type) := ℕ → V

/-- What the linearizer does (`linearizeDomain_`, `linearizeAuxiliaryEquations_`, opm/models/nonlinear/newtonmethod.hh:286-287). -/
inductive LinResult (K : Type) where
  | caught                       -- throws a Dune::Exception or a NumericalProblem
  | other                        -- throws something else
  | residual (r : Vec (List (Fl K)))

/-- What the linear solver does, including post processing (opm/models/nonlinear/newtonmethod.hh:318-346, 621-650).  An exception from
`updatePrimaryVariables_` in the middle of the update loop is not modelled separately (the solution vector is
then partially updated; it is discarded by `updateFailed`, see `Verif.Cache`). -/
inductive SolveResult (W : Type) where
  | caught
  | other
  | notConverged
  | update (u : Vec W) (finite : Bool)   -- finite: std::isfinite(solutionUpdate.one_norm())

/-- The environment of the Newton method. `V`: primary variables, `W`: their updates. -/
structure Env (K V W : Type) where
  numGridDof : ℕ
  numTotalDof : ℕ
  volume : ℕ → K                               -- model().dofTotalVolume(dofIdx)
  weight : ℕ → ℕ → K                           -- model().eqWeight(dofIdx, eqIdx)
  constraints : ℕ → Option V                   -- linearizer().constraintsMap(); empty if constraints are disabled
  beginIterationOk : ℕ → Bool                  -- problem().beginIteration() does not throw
  endIterationOk : ℕ → Bool                    -- problem().endIteration() does not throw
  linearize : ℕ → Vec V → LinResult K
  solve : ℕ → Vec V → SolveResult W
  updatePrimaryVariables : ℕ → V → W → V       -- may be overloaded by the model; default: current - update
  subtract : V → W → V                         -- `-=` for auxiliary degrees of freedom
  tolerance : K
  maxError : K                                 -- NewtonMaxError
  maxIterations : ℕ
  targetIterations : ℕ

/-- State of the Newton method object and of the solution vector. -/
structure NState (K V : Type) where
  sol : Vec V          -- model().solution(0), called nextSolution
  error : Fl K
  lastError : Fl K
  iterations : ℕ

/-- Result of `apply`. -/
inductive Outcome where
  | success | failure | thrown
  deriving DecidableEq

variable {K V W : Type} [Field K] [LinearOrder K]

/-- The entries of the residual of one degree of freedom, opm/models/nonlinear/newtonmethod.hh:589-591. -/
def errorOfDof (env : Env K V W) (dof : ℕ) (acc : Fl K) (r : List (Fl K)) : Fl K :=
  (r.zipIdx).foldl (fun acc p => Fl.max (Fl.abs (p.1.scale (env.weight dof p.2))) acc) acc

/-- Is this degree of freedom considered for the error?  opm/models/nonlinear/newtonmethod.hh:579-587. -/
def considered (env : Env K V W) (dof : ℕ) : Bool :=
  decide (dof < env.numGridDof) && decide (0 < env.volume dof) && (env.constraints dof).isNone

/-- The error computed in `preSolve_`, opm/models/nonlinear/newtonmethod.hh:577-592 (one process: `comm_.max` is the identity). -/
def computeError (env : Env K V W) (r : Vec (List (Fl K))) : Fl K :=
  (List.range env.numTotalDof).foldl
    (fun acc dof => if considered env dof then errorOfDof env dof acc (r dof) else acc) (.num 0)

/-- `converged()`, opm/models/nonlinear/newtonmethod.hh:164-165. -/
def converged (env : Env K V W) (st : NState K V) : Bool := st.error.le (.num env.tolerance)

/-- `proceed_`, opm/models/nonlinear/newtonmethod.hh:788-806. -/
def proceed (env : Env K V W) (st : NState K V) : Bool :=
  if st.iterations < 1 then true
  else if converged env st then false
  else if env.maxIterations ≤ st.iterations then (st.error.scale 4).lt st.lastError
  else true

/-- `failed_`, opm/models/nonlinear/newtonmethod.hh:824-825. -/
def failedState (env : Env K V W) (st : NState K V) : NState K V :=
  { st with iterations := env.targetIterations * 2 }

/-- `applyConstraintsToSolution_`, opm/models/discretization/common/fvbaselinearizer.hh:630-645, for the current time
level. -/
def applyConstraints (env : Env K V W) (s : Vec V) : Vec V :=
  fun i => (env.constraints i).getD (s i)

/-- The loops of `update_`, opm/models/nonlinear/newtonmethod.hh:680-710, with `updateConstraintDof_` (716-719).  `current` is the
solution at the beginning of the iteration. -/
def updateSolution (env : Env K V W) (next current : Vec V) (u : Vec W) : Vec V := fun i =>
  if i < env.numGridDof then
    match env.constraints i with
    | some c => c
    | none => env.updatePrimaryVariables i (current i) (u i)
  else if i < env.numTotalDof then env.subtract (current i) (u i)
  else next i

/-- How one pass through the loop ends. -/
inductive PassResult (K V : Type) where
  | again (st : NState K V)      -- to the loop condition
  | leave (st : NState K V)      -- break
  | failure (st : NState K V)    -- return false inside of the loop / from a handler
  | thrown (st : NState K V)     -- an exception which is not handled

/-- `endIteration_`, opm/models/nonlinear/newtonmethod.hh:755-783. -/
def endIteration (env : Env K V W) (st : NState K V) (k : NState K V → PassResult K V) : PassResult K V :=
  let st := { st with iterations := st.iterations + 1 }
  if env.endIterationOk st.iterations then k st else .failure st

/-- The body of the loop of `apply`, opm/models/nonlinear/newtonmethod.hh:266-370, and the handlers 372-395. -/
def pass (env : Env K V W) (st : NState K V) : PassResult K V :=
  -- beginIteration_ (opm/models/nonlinear/newtonmethod.hh:532-555)
  if !env.beginIterationOk st.iterations then .failure st
  else
    let st := { st with lastError := st.error }
    let current := st.sol
    -- linearizeDomain_: the constraints are applied to the solution first (opm/models/discretization/common/fvbaselinearizer.hh:526)
    let st := { st with sol := applyConstraints env st.sol }
    match env.linearize st.iterations st.sol with
    | .caught => .failure st
    | .other => .thrown st
    | .residual r =>
      -- preSolve_ (opm/models/nonlinear/newtonmethod.hh:572-607)
      let st := { st with lastError := st.error, error := computeError env r }
      if (Fl.num env.maxError).lt st.error then .failure st
      else if !proceed env st then endIteration env st .leave
      else
        match env.solve st.iterations st.sol with
        | .caught => .failure st
        | .other => .thrown st
        | .notConverged => .failure st
        | .update u finite =>
          if !finite then .failure st
          else endIteration env { st with sol := updateSolution env st.sol current u } .again

/-- The part of `apply` behind the loop, opm/models/nonlinear/newtonmethod.hh:397-438. -/
def afterLoop (env : Env K V W) (st : NState K V) : Outcome × NState K V :=
  if converged env st then (.success, st) else (.failure, failedState env st)

/-- The loop of `apply`, opm/models/nonlinear/newtonmethod.hh:266-370, for at most `fuel` evaluations of its condition; `none` if it
is not finished then. -/
def loop (env : Env K V W) : ℕ → NState K V → Option (Outcome × NState K V)
  | 0, _ => none
  | fuel + 1, st =>
    if proceed env st then
      match pass env st with
      | .again st' => loop env fuel st'
      | .leave st' => some (afterLoop env st')
      | .failure st' => some (.failure, failedState env st')
      | .thrown st' => some (.thrown, st')
    else some (afterLoop env st)

/-- `apply`, opm/models/nonlinear/newtonmethod.hh:228-438, started with the solution `s` and with whatever value `error_` and
`lastError_` have from earlier calls (they are not reset by `begin_`, 520-527). -/
def apply (env : Env K V W) (s : Vec V) (error lastError : Fl K) (fuel : ℕ) :
    Option (Outcome × NState K V) :=
  loop env fuel { sol := s, error := error, lastError := lastError, iterations := 0 }

/-- `suggestTimeStepSize`, opm/models/nonlinear/newtonmethod.hh:448-465. -/
def suggestTimeStepSize (minDt : K) (target iterations : ℕ) (oldDt : K) : K :=
  if target < iterations then
    Max.max minDt (oldDt / (1 + ((iterations - target : ℕ) : K) / target))
  else
    Max.max minDt (oldDt * (1 + (((target - iterations : ℕ) : K) / target) / (6/5)))

end Verif.Newton
