import Verif.ParSim.Model

/-
Whole simulations with constraints.  The first linearization of the Newton method writes constraints into the solutions of both time
levels (`applyConstraintsToSolution_`, opm/models/discretization/common/fvbaselinearizer.hh lines 518-524, 630-645); if a time step fails,
`updateFailed` (opm/models/discretization/common/fvbasediscretization.hh lines 1362-1379) copies the previous time level, as it is then, to
the current one.  Everything else is as in `Verif.ParSim.Model`, where the Newton method writes constraints into the current solution.

Simplification: constraints of a time step are the same before and after they have been written into the previous time level.
-/

set_option autoImplicit false

namespace Verif.ParSim

open Verif.TimeLoop Verif.Newton Verif.ParSolve.Block

variable {K S X : Type}

/-- One call of the Newton method: time step size, what is left from the last call, current and previous solution; in the result also
the solution of the previous time level with the constraints. -/
abbrev TiedSolver (K S : Type) := K → Memory K → S → S → TimeInt.SolveResult S × S × Memory K

/-- `update` and `updateFailed` (opm/models/discretization/common/fvbasediscretization.hh lines 1247-1321, 1362-1379) -/
def tiedUpdate (solver : TiedSolver K S) (st : TimeInt.St K S) (mem : Memory K) : Option Bool × TimeInt.St K S × Memory K :=
  match solver st.dt mem st.sol0 st.sol1 with
  | (.thrown it, old, mem) => (none, ⟨it, old, st.dt⟩, mem)
  | (.returned it true, old, mem) => (some true, ⟨it, old, st.dt⟩, mem)
  | (.returned _ false, old, mem) => (some false, ⟨old, old, st.dt⟩, mem)

/-- The loop of `timeIntegration` (opm/models/discretization/common/fvbaseproblem.hh lines 518-549) -/
def tiedAttempts [Field K] [LinearOrder K] (minDt : K) (cont : Bool) (solver : TiedSolver K S) :
    ℕ → TimeInt.St K S → Memory K → TimeInt.Outcome × TimeInt.St K S × Memory K
  | 0, st, mem => (.gaveUp, st, mem)
  | n + 1, st, mem =>
    match tiedUpdate solver st mem with
    | (none, st, mem) => (.thrown, st, mem)
    | (some true, st, mem) => (.converged, st, mem)
    | (some false, st, mem) =>
      let nextDt := st.dt / 2
      if st.dt < minDt * (1 + TimeInt.relTol K) then
        if cont then (.accepted, st, mem) else (.gaveUp, st, mem)
      else
        let nextDt := if nextDt < minDt then minDt else nextDt
        tiedAttempts minDt cont solver n { st with dt := nextDt } mem

/-- The problem which the time loop works with: as `problem`, with the time integration (opm/models/discretization/common/fvbaseproblem.hh
lines 512-557) for constraints -/
def tiedProblem [Field K] [LinearOrder K] (solver : X → TiedSolver K S) (h : Hooks K S X) : Problem K (St K S X) :=
  { beginEpisode := lift h.beginEpisode
    endEpisode := lift h.endEpisode
    beginTimeStep := lift h.beginTimeStep
    endTimeStep := lift h.endTimeStep
    writeOutput := lift h.writeOutput
    advanceTimeLevel := fun p s =>
      (h.advanceTimeLevel p.own p.sol0 p.memory s).map fun r => ({ p with own := r.1, sol1 := p.sol0 }, r.2)
    writeRestart := lift h.writeRestart
    finalize := lift h.finalize
    timeIntegration := fun p s =>
      match tiedAttempts h.minDt h.continueOnError (solver p.own) h.maxFails ⟨p.sol0, p.sol1, s.dt⟩ p.memory with
      | (.converged, st, mem) => some ({ p with sol0 := st.sol0, sol1 := st.sol1, memory := mem }, st.dt)
      | (.accepted, st, mem) => some ({ p with sol0 := st.sol0, sol1 := st.sol1, memory := mem }, st.dt)
      | (.gaveUp, _, _) => none
      | (.thrown, _, _) => none
    nextTimeStepSize := fun p s => h.nextTimeStepSize p.own p.sol0 p.memory s
    forcedTimeSteps := h.forcedTimeSteps }

/-- The Newton method of one process: constraints are written into the previous time level
(opm/models/discretization/common/fvbaselinearizer.hh lines 630-645) unless `beginIteration` fails before
(opm/models/nonlinear/newtonmethod.hh lines 266-282). -/
def oneTied {E : ℕ} {V : Type} [Field K] [LinearOrder K] (env : K → Memory K → (ℕ → V) → Newton.Env K V (Blk E K)) (fuel : ℕ) :
    TiedSolver K (ℕ → V) := fun dt mem s old =>
  let written := if (env dt mem old).beginIterationOk 0 then applyConstraints (env dt mem old) old else old
  let r := oneSolver env fuel dt mem s written
  (r.1, written, r.2)

/-- The Newton methods of all processes: each process writes the constraints of its cells, also of its copies, into its solution of the
previous time level (opm/models/discretization/common/fvbaselinearizer.hh lines 630-645), unless `beginIteration` fails on one of them
(opm/models/nonlinear/newtonmethod.hh lines 532-555). -/
def allTied {P E : ℕ} {V : Type} [Field K] [LinearOrder K] (machine : K → Memory K → (Fin (P + 1) → ℕ → V) → ParNewton.Machine P E K V)
    (fuel : ℕ) : TiedSolver K (Fin (P + 1) → ℕ → V) := fun dt mem s old =>
  let M := machine dt mem old
  let written := if ∀ p, (M.env p).beginIterationOk 0 = true then fun p => applyConstraints (M.env p) (old p) else old
  let r := allSolver machine fuel dt mem s written
  (r.1, written, r.2)

/-- `applyConstraintsToLinearization_` (opm/models/discretization/common/fvbaselinearizer.hh lines 647-666) on one process, with `clearRow`
(opm/simulators/linalg/istlsparsematrixadapter.hh lines 135-150): rows of degrees of freedom with constraints become those of the identity,
their residuals zero. -/
def clearRows {E : ℕ} {V : Type} [Field K] (constraints : ℕ → Option V) (s : OverlapMatrix.NativeMatrix (Mat E K) × (ℕ → Blk E K)) :
    OverlapMatrix.NativeMatrix (Mat E K) × (ℕ → Blk E K) :=
  ({ s.1 with value := fun i j => if (constraints i).isSome then (if j = i then 1 else 0) else s.1.value i j },
    fun i => if (constraints i).isSome then 0 else s.2 i)

/-- The Newton methods of all processes with constraints: what they do without, but each process asks for the constraints of its cells
(`updateConstraintsMap_`, opm/models/discretization/common/fvbaselinearizer.hh lines 470-506), and applies them to its linear system at the end
of `linearize_` (line 589). -/
def tie {P E : ℕ} {V : Type} [Field K] (constraints : Fin (P + 1) → ℕ → Option V) (M : ParNewton.Machine P E K V) : ParNewton.Machine P E K V :=
  { M with
    env := fun p => { M.env p with constraints := constraints p }
    linearize := fun n p x => (M.linearize n p x).map (clearRows (constraints p)) }

end Verif.ParSim
