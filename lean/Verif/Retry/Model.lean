import Verif.TimeInt.Model
import Mathlib.Algebra.Order.Field.Basic

/-
Time steps with constraints: attempts which fail, and retries with smaller time step sizes.  Before each linearization the values of
constraints are written into the solutions of both time levels; a failed attempt copies the previous time level to the current one.

Simplifications: exact numbers; the Newton method is a function of the time step size and of the solutions of both time levels after the
first linearization has written the constraints into them (it writes the same values in later iterations).  In particular it does not
remember errors of earlier calls (C183).
-/

set_option autoImplicit false

namespace Verif.Retry

/-- A time step which is to be taken from a certain time on: the constraints for each time step size, as the problem states them for the end of
the step, whether `beginIteration` works in the first iteration of an attempt, and the Newton method: time step size, previous and
current solution -/
structure Task (K V : Type) where
  constraints : K → ℕ → Option V
  beginOk : ℕ → K → Bool
  newton : K → (ℕ → V) → (ℕ → V) → TimeInt.SolveResult (ℕ → V)

/-- `applyConstraintsToSolution_`, opm/models/discretization/common/fvbaselinearizer.hh lines 630-645, for one of the two time levels -/
def applyConstraints {V : Type} (c : ℕ → Option V) (s : ℕ → V) : ℕ → V := fun i => (c i).getD (s i)

/-- `update`, opm/models/discretization/common/fvbasediscretization.hh lines 1247-1321, with `updateFailed`, lines 1362-1379.  The first
linearization collects the constraints and writes them into both solutions, opm/models/discretization/common/fvbaselinearizer.hh lines
518-524; it is not reached if `beginIteration` fails.  `none`: an exception leaves the function. -/
def update {K V : Type} (t : Task K V) (i : ℕ) (st : TimeInt.St K (ℕ → V)) : Option Bool × TimeInt.St K (ℕ → V) :=
  if t.beginOk i st.dt then
    let sol0 := applyConstraints (t.constraints st.dt) st.sol0
    let sol1 := applyConstraints (t.constraints st.dt) st.sol1
    match t.newton st.dt sol1 sol0 with
    | .thrown it => (none, ⟨it, sol1, st.dt⟩)
    | .returned it true => (some true, ⟨it, sol1, st.dt⟩)
    | .returned _ false => (some false, ⟨sol1, sol1, st.dt⟩)
  else (some false, { st with sol0 := st.sol1 })

/-- The loop of `timeIntegration`, opm/models/discretization/common/fvbaseproblem.hh lines 518-549: `n` attempts are left, `i` were made. -/
def attempts {K V : Type} [Field K] [LinearOrder K] (minDt : K) (cont : Bool) (t : Task K V) :
    ℕ → ℕ → TimeInt.St K (ℕ → V) → TimeInt.Res K (ℕ → V)
  | 0, _, st => ⟨.gaveUp, st, []⟩
  | n + 1, i, st =>
    match update t i st with
    | (none, st') => ⟨.thrown, st', [st.dt]⟩
    | (some true, st') => ⟨.converged, st', [st.dt]⟩
    | (some false, st') =>
      if st'.dt < minDt * (1 + TimeInt.relTol K) then
        if cont then ⟨.accepted, st', [st.dt]⟩ else ⟨.gaveUp, st', [st.dt]⟩
      else
        let nextDt := if st'.dt / 2 < minDt then minDt else st'.dt / 2
        let r := attempts minDt cont t n (i + 1) { st' with dt := nextDt }
        { r with attempts := st.dt :: r.attempts }

/-- `timeIntegration`, opm/models/discretization/common/fvbaseproblem.hh lines 512-557 -/
def timeIntegration {K V : Type} [Field K] [LinearOrder K] (maxFails : ℕ) (minDt : K) (cont : Bool) (t : Task K V)
    (st : TimeInt.St K (ℕ → V)) : TimeInt.Res K (ℕ → V) :=
  attempts minDt cont t maxFails 0 st

end Verif.Retry
