import Mathlib.Algebra.Order.Field.Basic

set_option autoImplicit false
/-
Model of `FvBaseProblem::timeIntegration` (`/repo/opm/models/discretization/common/fvbaseproblem.hh:512-557`)
and of `FvBaseDiscretization::update` / `updateFailed` (`opm/models/discretization/common/fvbasediscretization.hh:1247-1321, 1362-1379`).

The nonlinear solver is an arbitrary function of the attempt, the time step size and the solutions.  The
intensive quantities are the subject of `Verif.Cache`.
Simplification: the solver does not change the solution of the previous time level.  With constraints enabled it
does (`applyConstraintsToSolution_`); that case is modelled in `Verif.Retry`.
-/
namespace Verif.TimeInt

/-- What one call of the Newton method does to the solution: it leaves some iterate and reports whether it
converged; or it throws. -/
inductive SolveResult (S : Type) where
  | returned (iterate : S) (converged : Bool)
  | thrown (iterate : S)

/-- Solution of the current (0) and of the previous (1) time level, time step size of the simulator. -/
structure St (K S : Type) where
  sol0 : S
  sol1 : S
  dt : K

/-- The solver: attempt index, time step size, current and previous solution. -/
abbrev Solver (K S : Type) := ℕ → K → S → S → SolveResult S

/-- `update`, opm/models/discretization/common/fvbasediscretization.hh:1247-1321, with `updateFailed`, 1362-1379.  `none`: an exception leaves
the function. -/
def update {K S : Type} (solver : Solver K S) (i : ℕ) (st : St K S) : Option Bool × St K S :=
  match solver i st.dt st.sol0 st.sol1 with
  | .thrown it => (none, { st with sol0 := it })
  | .returned it true => (some true, { st with sol0 := it })
  | .returned _ false => (some false, { st with sol0 := st.sol1 })

/-- How `timeIntegration` ends. -/
inductive Outcome where
  | converged      -- line 520
  | accepted       -- line 530: continue in spite of the failure
  | gaveUp         -- line 556: throws
  | thrown         -- an exception of `update` passes through
  deriving DecidableEq

/-- The relative tolerance 1e-9 in the test of line 524. -/
def relTol (K : Type) [Field K] : K := 1 / 1000000000

/-- Final state and the list of all attempted time step sizes. -/
structure Res (K S : Type) where
  outcome : Outcome
  st : St K S
  attempts : List K

/-- The loop of `timeIntegration`, opm/models/discretization/common/fvbaseproblem.hh:518-549: `n` attempts are left, `i` were made. -/
def attempts {K S : Type} [Field K] [LinearOrder K] (minDt : K) (cont : Bool) (solver : Solver K S) :
    ℕ → ℕ → St K S → Res K S
  | 0, _, st => ⟨.gaveUp, st, []⟩
  | n + 1, i, st =>
    match update solver i st with
    | (none, st') => ⟨.thrown, st', [st.dt]⟩
    | (some true, st') => ⟨.converged, st', [st.dt]⟩
    | (some false, st') =>
      let nextDt := st'.dt / 2
      if st'.dt < minDt * (1 + relTol K) then
        if cont then ⟨.accepted, st', [st.dt]⟩ else ⟨.gaveUp, st', [st.dt]⟩
      else
        let nextDt := if nextDt < minDt then minDt else nextDt
        let r := attempts minDt cont solver n (i + 1) { st' with dt := nextDt }
        { r with attempts := st.dt :: r.attempts }

/-- `timeIntegration`, opm/models/discretization/common/fvbaseproblem.hh:512-557. -/
def timeIntegration {K S : Type} [Field K] [LinearOrder K] (maxFails : ℕ) (minDt : K) (cont : Bool)
    (solver : Solver K S) (st : St K S) : Res K S :=
  attempts minDt cont solver maxFails 0 st

end Verif.TimeInt
