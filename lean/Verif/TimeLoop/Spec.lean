import Verif.TimeLoop.Model

set_option autoImplicit false
/-
Specification of well-bracketed runs: a finite automaton over the observable events.
-/
namespace Verif.TimeLoop

/-- Where a run is, as seen from the outside. -/
inductive Phase where
  | betweenEpisodes
  | episodeBegun     -- an episode was begun, no time step was begun in it
  | inEpisode        -- some time step of the episode was done, no time step is being done
  | stepBegun
  | stepIntegrated   -- the time integration of the current step has succeeded
  | stepEnded        -- the current step is ended, but the clock has not advanced
  | stepCancelled    -- the step was ended without integration because the problem stopped the simulation
  | episodeCancelled -- the episode was ended for the same reason
  | over
  deriving DecidableEq

/-- Which event is legal when. -/
def Phase.next {K : Type} : Phase → Event K → Option Phase
  | .betweenEpisodes, .beginEpisode => some .episodeBegun
  | .betweenEpisodes, .finalized => some .over
  | .episodeBegun, .beginTimeStep => some .stepBegun
  | .episodeBegun, .endEpisode => some .episodeCancelled
  | .inEpisode, .beginTimeStep => some .stepBegun
  | .inEpisode, .endEpisode => some .betweenEpisodes
  | .inEpisode, .finalized => some .over
  | .stepBegun, .integrated _ _ => some .stepIntegrated
  | .stepIntegrated, .endTimeStep => some .stepEnded
  | .stepEnded, .advanced _ => some .inEpisode
  | .stepBegun, .endTimeStep => some .stepCancelled
  | .stepCancelled, .endEpisode => some .episodeCancelled
  | .episodeCancelled, .finalized => some .over
  | _, _ => none

/-- The phase after a sequence of events, `none` if some event was illegal. -/
def phaseAfter {K : Type} (p : Phase) (t : List (Event K)) : Option Phase :=
  t.foldl (fun q e => q.bind (·.next e)) (some p)

/-- The sizes of the completed time steps. -/
def completedSteps {K : Type} : List (Event K) → List K
  | [] => []
  | .advanced d :: t => d :: completedSteps t
  | _ :: t => completedSteps t

/-- A callback which never uses the functions of the simulator which change the clock. -/
def Quiet {K σ : Type} (cb : Callback K σ) : Prop := ∀ p s r, cb p s = some r → r.2 = []

variable {K : Type} [Field K] [LinearOrder K] {σ : Type}

/-- The run has ended (regularly, by a callback which threw, or by an exception of the time integration). -/
def Ended (c : Conf K σ) : Prop := c.pc = .done ∨ c.pc = .aborted ∨ c.pc = .thrown

/-- The run ends after finitely many steps. -/
def Ends (P : Problem K σ) (c : Conf K σ) : Prop := ∃ n, Ended (run P n c)

/-- No callback of the problem moves the end of the simulation. -/
def KeepsEndTime (P : Problem K σ) : Prop :=
  ∀ cb ∈ [P.beginEpisode, P.endEpisode, P.beginTimeStep, P.endTimeStep, P.writeOutput, P.advanceTimeLevel,
    P.writeRestart, P.finalize], ∀ p s r, cb p s = some r → ∀ t, Cmd.setEndTime t ∉ r.2

/-- No callback of the problem stops the simulation. -/
def NeverStops (P : Problem K σ) : Prop :=
  ∀ cb ∈ [P.beginEpisode, P.endEpisode, P.beginTimeStep, P.endTimeStep, P.writeOutput, P.advanceTimeLevel,
    P.writeRestart, P.finalize], ∀ p s r, cb p s = some r → ∀ b, Cmd.setFinished b ∉ r.2

end Verif.TimeLoop
