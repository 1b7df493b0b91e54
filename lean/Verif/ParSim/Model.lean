import Verif.ParNewton.Model
import Verif.TimeLoop.Model
import Verif.TimeInt.Model

/-
A whole simulation on several processes: the time loop of `Verif.TimeLoop` on all processes together, with the time integration
(opm/models/discretization/common/fvbaseproblem.hh lines 512-557) and `update`
(opm/models/discretization/common/fvbasediscretization.hh lines 1247-1321, 1362-1379), which call the Newton method.  The same definitions
serve for one process and for several: `S` is the type of solutions, of one process or of all processes.

All processes call the same functions: where they decide by values which are the same on all of them (the clock, errors and numbers of
iterations), there is one copy of these values.  That the Newton methods of all processes do have the same ones is part of
`Verif.ParNewton`, where each process has its own.

Simplifications, besides those of the parts: no grid adaptation; solutions are changed by the time integration and by `advanceTimeLevel`
only; intensive quantities are not cached (`EnableIntensiveQuantityCache` is off by default).
-/

set_option autoImplicit false

namespace Verif.ParSim

open Verif.TimeLoop Verif.Newton Verif.ParSolve.Block

/-- Members of the Newton method which are left from its last call (opm/models/nonlinear/newtonmethod.hh lines 850-890), and the number of
calls so far: messages may take another course each time. -/
structure Memory (K : Type) where
  error : Fl K
  lastError : Fl K
  iterations : ℕ
  calls : ℕ

variable {K S X : Type}

/-- One call of the Newton method: time step size, what is left from the last call, current and previous solution -/
abbrev Solver (K S : Type) := K → Memory K → S → S → TimeInt.SolveResult S × Memory K

/-- `update` and `updateFailed` (opm/models/discretization/common/fvbasediscretization.hh lines 1247-1321, 1362-1379), as in
`Verif.TimeInt` -/
def update (solver : Solver K S) (st : TimeInt.St K S) (mem : Memory K) : Option Bool × TimeInt.St K S × Memory K :=
  match solver st.dt mem st.sol0 st.sol1 with
  | (.thrown it, mem) => (none, { st with sol0 := it }, mem)
  | (.returned it true, mem) => (some true, { st with sol0 := it }, mem)
  | (.returned _ false, mem) => (some false, { st with sol0 := st.sol1 }, mem)

/-- The loop of `timeIntegration` (opm/models/discretization/common/fvbaseproblem.hh lines 518-549), as in `Verif.TimeInt` -/
def attempts [Field K] [LinearOrder K] (minDt : K) (cont : Bool) (solver : Solver K S) :
    ℕ → TimeInt.St K S → Memory K → TimeInt.Outcome × TimeInt.St K S × Memory K
  | 0, st, mem => (.gaveUp, st, mem)
  | n + 1, st, mem =>
    match update solver st mem with
    | (none, st, mem) => (.thrown, st, mem)
    | (some true, st, mem) => (.converged, st, mem)
    | (some false, st, mem) =>
      let nextDt := st.dt / 2
      if st.dt < minDt * (1 + TimeInt.relTol K) then
        if cont then (.accepted, st, mem) else (.gaveUp, st, mem)
      else
        let nextDt := if nextDt < minDt then minDt else nextDt
        attempts minDt cont solver n { st with dt := nextDt } mem

/-- The state of the problem, the solutions of the current and the previous time level and of the Newton method -/
structure St (K S X : Type) where
  own : X
  sol0 : S
  sol1 : S
  memory : Memory K

/-- A callback of the problem, which can look at the solution and the Newton method. -/
abbrev Hook (K S X : Type) := X → S → Memory K → Sim K → Option (X × List (Cmd K))

/-- The callbacks of the problem (`Verif.TimeLoop.Problem`) and parameters of the time integration -/
structure Hooks (K S X : Type) where
  beginEpisode : Hook K S X
  endEpisode : Hook K S X
  beginTimeStep : Hook K S X
  endTimeStep : Hook K S X
  writeOutput : Hook K S X
  advanceTimeLevel : Hook K S X
  writeRestart : Hook K S X
  finalize : Hook K S X
  nextTimeStepSize : X → S → Memory K → Sim K → K
  forcedTimeSteps : List K
  maxFails : ℕ
  minDt : K
  continueOnError : Bool

/-- A callback which leaves the solutions alone. -/
def lift (h : Hook K S X) : Callback K (St K S X) := fun p s => (h p.own p.sol0 p.memory s).map fun r => ({ p with own := r.1 }, r.2)

/-- The problem which the time loop works with.  `advanceTimeLevel` copies the current solution to the previous time level
(opm/models/discretization/common/fvbaseproblem.hh lines 638-639, opm/models/discretization/common/fvbasediscretization.hh lines
1388-1401); `timeIntegration` is opm/models/discretization/common/fvbaseproblem.hh lines 512-557. -/
def problem [Field K] [LinearOrder K] (solver : X → Solver K S) (h : Hooks K S X) : Problem K (St K S X) :=
  { beginEpisode := lift h.beginEpisode
    endEpisode := lift h.endEpisode
    beginTimeStep := lift h.beginTimeStep
    endTimeStep := lift h.endTimeStep
    writeOutput := lift h.writeOutput
    advanceTimeLevel := fun p s =>
      (h.advanceTimeLevel p.own p.sol0 p.memory s).map fun r => ({ p with own := r.1, sol1 := p.sol0 }, r.2)
    writeRestart := lift h.writeRestart
    finalize := lift h.finalize
    timeIntegration := fun p s =>
      match attempts h.minDt h.continueOnError (solver p.own) h.maxFails ⟨p.sol0, p.sol1, s.dt⟩ p.memory with
      | (.converged, st, mem) => some ({ p with sol0 := st.sol0, sol1 := st.sol1, memory := mem }, st.dt)
      | (.accepted, st, mem) => some ({ p with sol0 := st.sol0, sol1 := st.sol1, memory := mem }, st.dt)
      | (.gaveUp, _, _) => none
      | (.thrown, _, _) => none
    nextTimeStepSize := fun p s => h.nextTimeStepSize p.own p.sol0 p.memory s
    forcedTimeSteps := h.forcedTimeSteps }

/-- The Newton method of one process as solver, with at most `fuel` evaluations of the condition of its loop.  That this is not enough is
treated like an exception. -/
def oneSolver {E : ℕ} {V : Type} [Field K] [LinearOrder K] (env : K → Memory K → (ℕ → V) → Newton.Env K V (Blk E K)) (fuel : ℕ) : Solver K (ℕ → V) :=
  fun dt mem s old =>
    match Newton.apply (env dt mem old) s mem.error mem.lastError fuel with
    | none => (.thrown s, { mem with calls := mem.calls + 1 })
    | some (.success, st) => (.returned st.sol true, ⟨st.error, st.lastError, st.iterations, mem.calls + 1⟩)
    | some (.failure, st) => (.returned st.sol false, ⟨st.error, st.lastError, st.iterations, mem.calls + 1⟩)
    | some (.thrown, st) => (.thrown st.sol, ⟨st.error, st.lastError, st.iterations, mem.calls + 1⟩)

/-- The Newton methods of all processes as solver.  What the first process says is taken for all of them (that all say the same is
`C161_newton_partial`); processes which wait for ever are treated like an exception (that there are none is `C162_agree`). -/
def allSolver {P E : ℕ} {V : Type} [Field K] [LinearOrder K] (machine : K → Memory K → (Fin (P + 1) → ℕ → V) → ParNewton.Machine P E K V)
    (fuel : ℕ) : Solver K (Fin (P + 1) → ℕ → V) := fun dt mem s old =>
  match ParNewton.apply (machine dt mem old) s mem.error mem.lastError fuel with
  | none => (.thrown s, { mem with calls := mem.calls + 1 })
  | some .deadlock => (.thrown s, { mem with calls := mem.calls + 1 })
  | some (.finished r) =>
    let mem : Memory K := ⟨(r 0).2.error, (r 0).2.lastError, (r 0).2.iterations, mem.calls + 1⟩
    match (r 0).1 with
    | .success => (.returned (fun p => (r p).2.sol) true, mem)
    | .failure => (.returned (fun p => (r p).2.sol) false, mem)
    | .thrown => (.thrown (fun p => (r p).2.sol), mem)

end Verif.ParSim
