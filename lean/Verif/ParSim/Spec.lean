import Verif.ParSim.Model
import Verif.ParNewton.Props

/-
What it means that a simulation on several processes is the one on a single process.
-/

set_option autoImplicit false

namespace Verif.ParSim

open Verif.TimeLoop Verif.Newton Verif.ParNewton Verif.ParSolve.Block Verif.Overlap
open Verif.ParSolve (Enumerates Wide Steps Covered mem_all steps_mem wide_one row_enumerates)

variable {P N E : ℕ} {G K V X : Type} [Field K] [LinearOrder K] [IsStrictOrderedRing K] [Inhabited V]

/-- What is to be solved in a time step: `equations own dt old` are the equations for the state `own` of the problem, the time step size
`dt` and the solution `old` of the previous time level, and `settings` those of the Newton method. -/
structure Task (G : Type) (E : ℕ) (K V X : Type) where
  equations : X → K → (G → V) → Equations G E K V
  settings : X → K → Memory K → Settings K
  fuel : ℕ

/-- The values which the processes have for their own cells are those of the function `old`. -/
def Own (g : Grid (P + 1) G) (y : Fin (P + 1) → ℕ → V) (old : G → V) : Prop :=
  ∀ p (i : ℕ) c, (g.cells p)[i]? = some c → g.owner c = p → old c = y p i

/-- The equations of a cell depend on the solution of the cells of its stencil and on the values of the previous time level of the cell
itself (finite volumes with the implicit Euler method); which cells these are does not depend on the solutions. -/
structure LocalTask (task : Task G E K V X) : Prop where
  loc : ∀ own dt old, Local (task.equations own dt old)
  stencil : ∀ own dt old own' dt' old', (task.equations own dt old).stencil = (task.equations own' dt' old').stencil
  row : ∀ own dt old old' c, old c = old' c → (task.equations own dt old).row c = (task.equations own dt old').row c
  volume : ∀ own dt old old' c, old c = old' c → (task.equations own dt old).volume c = (task.equations own dt old').volume c
  weight : ∀ own dt old old' c, old c = old' c → (task.equations own dt old).weight c = (task.equations own dt old').weight c
  update : ∀ own dt old old' c, old c = old' c → (task.equations own dt old).update c = (task.equations own dt old').update c
  constraint : ∀ own dt old, (task.equations own dt old).constraint = fun _ => none := by intros; rfl

/-- The processes run the code for the task: whatever the values of the previous time level are, they solve the equations with the values
which the owners of cells have; intensive quantities are not cached, and there are no constraints (those also replace values of the previous
time level, opm/models/discretization/common/fvbaselinearizer.hh lines 636-644: see `Verif.ParSim.TiedModel`). -/
def Performs (task : Task G E K V X) (g : Grid (P + 1) G) (cell : Fin N → G)
    (machine : X → K → Memory K → (Fin (P + 1) → ℕ → V) → ParNewton.Machine P E K V) : Prop :=
  ∀ own dt mem y old, Own g y old →
    Started (task.equations own dt old) (task.settings own dt mem) g cell (machine own dt mem y) ∧
      ((machine own dt mem y).cache = fun _ _ => none) ∧ (task.equations own dt old).constraint = fun _ => none

/-- The simulation on one process -/
noncomputable def one (task : Task G E K V X) (cell : Fin N → G) (h : Hooks K (ℕ → V) X) : Problem K (St K (ℕ → V) X) :=
  problem (fun own => oneSolver (fun dt mem old =>
    single (task.equations own dt (onCells cell fun k => old k)) cell (task.settings own dt mem)) task.fuel) h

/-- The simulation on several processes -/
def several (task : Task G E K V X) (machine : X → K → Memory K → (Fin (P + 1) → ℕ → V) → ParNewton.Machine P E K V)
    (h : Hooks K (Fin (P + 1) → ℕ → V) X) : Problem K (St K (Fin (P + 1) → ℕ → V) X) :=
  problem (fun own => allSolver (machine own) task.fuel) h

/-- A callback on all processes together does what it does on one process: it uses the values of own cells only. -/
def SameHook (g : Grid (P + 1) G) (cell : Fin N → G) (h : Hook K (Fin (P + 1) → ℕ → V) X) (h1 : Hook K (ℕ → V) X) : Prop :=
  ∀ own y x mem sim, HaveOwn g cell y x → h own y mem sim = h1 own x mem sim

structure SameHooks (g : Grid (P + 1) G) (cell : Fin N → G) (h : Hooks K (Fin (P + 1) → ℕ → V) X) (h1 : Hooks K (ℕ → V) X) : Prop where
  beginEpisode : SameHook g cell h.beginEpisode h1.beginEpisode
  endEpisode : SameHook g cell h.endEpisode h1.endEpisode
  beginTimeStep : SameHook g cell h.beginTimeStep h1.beginTimeStep
  endTimeStep : SameHook g cell h.endTimeStep h1.endTimeStep
  writeOutput : SameHook g cell h.writeOutput h1.writeOutput
  advanceTimeLevel : SameHook g cell h.advanceTimeLevel h1.advanceTimeLevel
  writeRestart : SameHook g cell h.writeRestart h1.writeRestart
  finalize : SameHook g cell h.finalize h1.finalize
  nextTimeStepSize : ∀ own y x mem sim, HaveOwn g cell y x → h.nextTimeStepSize own y mem sim = h1.nextTimeStepSize own x mem sim
  forcedTimeSteps : h.forcedTimeSteps = h1.forcedTimeSteps
  maxFails : h.maxFails = h1.maxFails
  minDt : h.minDt = h1.minDt
  continueOnError : h.continueOnError = h1.continueOnError

/-- At the same point of the time loop, with the same clock and history of time steps, the same state of the problem and of the Newton
method, and the same values of own cells on both time levels -/
structure Same (g : Grid (P + 1) G) (cell : Fin N → G) (c : Conf K (St K (Fin (P + 1) → ℕ → V) X)) (c1 : Conf K (St K (ℕ → V) X)) :
    Prop where
  pc : c.pc = c1.pc
  sim : c.sim = c1.sim
  trace : c.trace = c1.trace
  episodeBegins : c.episodeBegins = c1.episodeBegins
  own : c.prob.own = c1.prob.own
  memory : c.prob.memory = c1.prob.memory
  sol0 : HaveOwn g cell c.prob.sol0 c1.prob.sol0
  sol1 : HaveOwn g cell c.prob.sol1 c1.prob.sol1

end Verif.ParSim
