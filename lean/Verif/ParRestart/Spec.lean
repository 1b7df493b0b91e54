import Verif.ParRestart.Model
import Verif.ParSim.Spec

set_option autoImplicit false

namespace Verif.ParRestart

open Verif.TimeLoop Verif.ParSim Verif.ParNewton Verif.Overlap

variable {P E : ℕ} {G K S V X : Type}

/-- The callbacks of the problem do not look at the Newton method, except for its number of iterations when they suggest the size of the
next time step. -/
structure Forgetful (h : Hooks K S X) : Prop where
  beginEpisode : ∀ own s m m' sim, h.beginEpisode own s m sim = h.beginEpisode own s m' sim
  endEpisode : ∀ own s m m' sim, h.endEpisode own s m sim = h.endEpisode own s m' sim
  beginTimeStep : ∀ own s m m' sim, h.beginTimeStep own s m sim = h.beginTimeStep own s m' sim
  endTimeStep : ∀ own s m m' sim, h.endTimeStep own s m sim = h.endTimeStep own s m' sim
  writeOutput : ∀ own s m m' sim, h.writeOutput own s m sim = h.writeOutput own s m' sim
  advanceTimeLevel : ∀ own s m m' sim, h.advanceTimeLevel own s m sim = h.advanceTimeLevel own s m' sim
  writeRestart : ∀ own s m m' sim, h.writeRestart own s m sim = h.writeRestart own s m' sim
  finalize : ∀ own s m m' sim, h.finalize own s m sim = h.finalize own s m' sim
  nextTimeStepSize : ∀ own s m m' sim, m.iterations = m'.iterations → h.nextTimeStepSize own s m sim = h.nextTimeStepSize own s m' sim

/-- The Newton method may do at least two iterations, and its parameters do not depend on what it did before. -/
structure Patient (task : Task G E K V X) : Prop where
  settings : ∀ own dt mem mem', task.settings own dt mem = task.settings own dt mem'
  two : ∀ own dt mem, 2 ≤ (task.settings own dt mem).maxIterations

/-- All processes have the same values for their own cells. -/
def OwnAlike (g : Grid (P + 1) G) (y z : Fin (P + 1) → ℕ → V) : Prop :=
  ∀ p (i : ℕ) c, (g.cells p)[i]? = some c → g.owner c = p → y p i = z p i

end Verif.ParRestart
