import Verif.ParBalance.Props
import Verif.Rest.Props

/-
Vocabulary for simulations on several processes which begin in equilibrium.
-/

set_option autoImplicit false

namespace Verif.ParRest

open Verif.ParSim

variable {N E : ℕ} {G K V X : Type} [Field K] [LinearOrder K]

/-- The solution `Y` is stationary: whatever the state of the problem and the time step size are, if a step begins with `Y`, the equations
of all cells are satisfied by `Y`, as far as they can be evaluated. -/
def Stationary (task : Task G E K V X) (cell : Fin N → G) (Y : G → V) : Prop :=
  ∀ own dt k r J, (task.equations own dt Y).row (cell k) Y = some (r, J) → r = 0

/-- Updates by zero do not change the primary variables. -/
def NoChange (task : Task G E K V X) (cell : Fin N → G) (Y : G → V) : Prop :=
  ∀ own dt k, (task.equations own dt Y).update (cell k) (Y (cell k)) 0 = Y (cell k)

/-- The numbers of the convergence criterion are such that no residual means convergence: what is taken for the reduction of a residual
which is zero must not be larger than the tolerance. -/
def Accepts (task : Task G E K V X) : Prop :=
  ∀ own dt mem, 0 ≤ (task.settings own dt mem).solver.tiny ∧
    (task.settings own dt mem).solver.tiny ≤ (task.settings own dt mem).solver.tolerance / 10 ^ 20

/-- Nothing fails: the equations can be evaluated if the time step size is not zero, the problem accepts the first iteration, tolerances
are not negative, and one iteration and one attempt are allowed. -/
structure Works (task : Task G E K V X) (cell : Fin N → G) (Y : G → V) (maxFails : ℕ) : Prop where
  row : ∀ own dt k, dt ≠ 0 → ((task.equations own dt Y).row (cell k) Y).isSome = true
  beginIteration : ∀ own dt mem, (task.settings own dt mem).beginOk 0 = true
  endIteration : ∀ own dt mem, (task.settings own dt mem).endOk 1 = true
  maxError : ∀ own dt mem, 0 ≤ (task.settings own dt mem).maxError
  tolerance : ∀ own dt mem, 0 ≤ (task.settings own dt mem).tolerance
  fuel : 2 ≤ task.fuel
  attempts : 1 ≤ maxFails

end Verif.ParRest
