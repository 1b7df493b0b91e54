import Verif.TimeLoop.Model
import Verif.TimeInt.Model
import Verif.Newton.Model

/-
The size of the next time step which problems suggest by default, and the time loop with it:
opm/models/discretization/common/fvbaseproblem.hh lines 580-606.
-/

set_option autoImplicit false

namespace Verif.StepSize

open Verif.TimeLoop

variable {K : Type} [Field K] [LinearOrder K]

/-- What `nextTimeStepSize` reads: the size imposed by `setNextTimeStepSize` (zero after construction,
opm/models/discretization/common/fvbaseproblem.hh lines 116 and 583-584), the parameters `MaxTimeStepSize`, `MinTimeStepSize` and
`NewtonTargetIterations`, and the number of iterations of the last time step. -/
structure Input (K : Type) where
  imposed : K
  maxSize : K
  minSize : K
  target : ℕ
  iterations : ℕ

/-- `nextTimeStepSize` (opm/models/discretization/common/fvbaseproblem.hh lines 591-606) -/
def nextTimeStepSize (i : Input K) (s : Sim K) : K :=
  if 0 < i.imposed then i.imposed
  else
    let dtNext := min i.maxSize (Newton.suggestTimeStepSize i.minSize i.target i.iterations s.dt)
    if dtNext < s.maxTimeStepSize ∧ s.maxTimeStepSize < dtNext * 2 then s.maxTimeStepSize / 2 * (101 / 100) else dtNext

/-- The problem uses the defaults: `nextTimeStepSize` as above, where what it reads depends on the state of the problem, and
`timeIntegration` (opm/models/discretization/common/fvbaseproblem.hh lines 512-557) with some solver for nonlinear systems. -/
structure Defaults {σ S : Type} (P : Problem K σ) (input : σ → Input K) (maxFails : ℕ) (cont : Bool)
    (solver : σ → TimeInt.Solver K S) (before after : σ → S) : Prop where
  next : ∀ p s, P.nextTimeStepSize p s = nextTimeStepSize (input p) s
  integration : ∀ p s q d, P.timeIntegration p s = some (q, d) →
    let r := TimeInt.timeIntegration maxFails (input p).minSize cont (solver p) ⟨after p, before p, s.dt⟩
    (r.outcome = .converged ∨ r.outcome = .accepted) ∧ d = r.st.dt

end Verif.StepSize
