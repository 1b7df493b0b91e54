import Verif.Balance.Model

/-
Whole simulations with any number of threads and with either of the two linearizers.  `Simulator::run` (`Verif.TimeLoop`),
`timeIntegration` and `update` (`Verif.TimeInt`) and `NewtonMethod::apply` (`Verif.Newton`) as in `Verif.Balance`, but the linear system is
what the linearizer leaves behind, whichever it is and however its threads are scheduled
(opm/models/discretization/common/tpfalinearizer.hh lines 711-866, opm/models/discretization/common/fvbaselinearizer.hh lines 508-666), and
the linear solver gets this system (opm/models/nonlinear/newtonmethod.hh lines 292-345).

Simplifications: as in `Verif.Balance`.
-/

set_option autoImplicit false

namespace Verif.ThreadSim

open Verif.TimeLoop Verif.Newton Verif.Balance

variable {K PV W M C X : Type} {m : ℕ}

/-- The linear system after each linearization: state of the problem, number of the attempt, time step size, solution of the previous time
level, number of the iteration, current solution -/
abbrev Linearized (K PV M X : Type) (m : ℕ) := X → ℕ → K → (ℕ → PV) → ℕ → (ℕ → PV) → Tpfa.System (Fin m → K) M

/-- The linear solver: as before, and the system -/
abbrev LinearSolver (K PV W M X : Type) (m : ℕ) := X → ℕ → K → (ℕ → PV) → ℕ → (ℕ → PV) → Tpfa.System (Fin m → K) M → SolveResult W

/-- The matrix and the residual have entries for the cells only. -/
def cut [Zero K] [Zero M] (n : ℕ) (s : Tpfa.System (Fin m → K) M) : Tpfa.System (Fin m → K) M :=
  { res := fun i => if i < n then s.res i else 0, mat := fun i j => if i < n ∧ j < n then s.mat i j else 0 }

variable [Field K] [LinearOrder K] [AddCommGroup M] [Module K M]

/-- The environment of the Newton method: `linearizeDomain_` and `solveLinear_` (opm/models/nonlinear/newtonmethod.hh lines 292-345,
561-570) -/
def env (f : Physics K PV M C X m) (q : Numerics K PV W M X m) (lin : Linearized K PV M X m) (solve : LinearSolver K PV W M X m) (own : X)
    (attempt : ℕ) (dt : K) (old : ℕ → PV) : Env K PV W :=
  { q.base own attempt dt old with
    numGridDof := f.numCells
    numTotalDof := f.numCells
    volume := f.volume
    weight := q.weight
    tolerance := q.tolerance
    constraints := fun _ => none
    linearize := fun it s =>
      match q.failure own attempt dt old it s with
      | some true => .caught
      | some false => .other
      | none => .residual fun i => List.ofFn fun k : Fin m =>
          if dt = 0 then .nan else .num ((cut f.numCells (lin own attempt dt old it s)).res i k)
    solve := fun it s => solve own attempt dt old it s (cut f.numCells (lin own attempt dt old it s)) }

/-- One call of the Newton method by `update` (opm/models/discretization/common/fvbasediscretization.hh lines 1247-1321), as in
`Verif.Balance` -/
def solver (f : Physics K PV M C X m) (q : Numerics K PV W M X m) (lin : Linearized K PV M X m) (solve : LinearSolver K PV W M X m)
    (own : X) : TimeInt.Solver K (ℕ → PV) := fun attempt dt s old =>
  match Newton.apply (env f q lin solve own attempt dt old) s (q.leftError own attempt dt old) (q.leftLastError own attempt dt old) q.fuel with
  | none => .thrown s
  | some (.success, st) => .returned st.sol true
  | some (.failure, st) => .returned st.sol false
  | some (.thrown, st) => .thrown st.sol

/-- The problem which the time loop works with, as in `Verif.Balance` (opm/models/discretization/common/fvbaseproblem.hh lines 512-557,
638-639, opm/models/discretization/common/fvbasediscretization.hh lines 1388-1401) -/
def problem (f : Physics K PV M C X m) (q : Numerics K PV W M X m) (lin : Linearized K PV M X m) (solve : LinearSolver K PV W M X m)
    (h : Hooks K PV X) : Problem K (St PV X) :=
  { Balance.problem f q h with
    timeIntegration := fun p s =>
      let r := TimeInt.timeIntegration q.maxFails q.minDt q.continueOnError (solver f q lin solve p.own) ⟨p.sol0, p.sol1, s.dt⟩
      match r.outcome with
      | .converged => some ({ p with sol0 := r.st.sol0, sol1 := r.st.sol1 }, r.st.dt)
      | .accepted => some ({ p with sol0 := r.st.sol0, sol1 := r.st.sol1 }, r.st.dt)
      | .gaveUp => none
      | .thrown => none }

end Verif.ThreadSim
