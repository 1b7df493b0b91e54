import Verif.Restart.Props
/-
Property C65: a run which is continued from a restart file does what the uninterrupted run does.
-/

set_option autoImplicit false

namespace Verif.Restart

open TimeLoop

variable {K σ : Type} [Field K] [LinearOrder K]

/-- What a process does which is started with a restart file: the clock is read from the file
(`Simulator::run`, opm/models/utils/simulator.hh:653-673), the problem and the model restore their state `p`; end time, time step size
and finished flag are those of the new process. -/
def restarted (saved : Clock K) (fresh : Sim K) (p : σ) : Conf K σ := start (restore saved fresh) p

theorem step_prefix (P : Problem K σ) (c : Conf K σ) (t : List (Event K)) :
    step P { c with trace := t ++ c.trace } = { step P c with trace := t ++ (step P c).trace } := by
  obtain ⟨pc, sim, pr, eb, tr⟩ := c
  cases pc <;> simp only [step, call] <;> (repeat' split) <;> simp_all

theorem run_prefix (P : Problem K σ) (c : Conf K σ) (t : List (Event K)) (n : ℕ) :
    run P n { c with trace := t ++ c.trace } = { run P n c with trace := t ++ (run P n c).trace } := by
  induction n with
  | zero => rfl
  | succ n ih => rw [run_succ, ih, step_prefix, run_succ]

/-- C65 (partial): if the new process has the end time, the finished flag and the time step size of the saved run, and
if the saved run was about to begin an episode exactly if the saved episode is over (or no step was done yet), then the
events after the restart are the events of the uninterrupted run.  What is missing: the conditions on the time step size
and on the episode, which the library does not ensure. -/
theorem C65_continues_partial (P : Problem K σ) (c : Conf K σ) (fresh : Sim K) (hpc : c.pc = .head)
    (hend : fresh.endTime = c.sim.endTime) (hfin : fresh.finishedFlag = c.sim.finishedFlag)
    (hdt : fresh.dt = c.sim.dt)
    (hep : c.episodeBegins = (c.sim.episodeIsOver || decide (c.sim.timeStepIdx = 0))) (n : ℕ) :
    (run P n c).trace = c.trace ++ (run P n (restarted (save c.sim) fresh c.prob)).trace := by
  have h1 : restore (save c.sim) fresh = c.sim := (C20_queries_agree c.sim fresh).2.2.2 hend hdt hfin
  have h2 : c = { restarted (save c.sim) fresh c.prob with
      trace := c.trace ++ (restarted (save c.sim) fresh c.prob).trace } := by
    obtain ⟨pc, sim, pr, eb, t⟩ := c
    simp only at hpc hep h1
    subst hpc
    simp [restarted, start, h1, hep]
  conv_lhs => rw [h2]
  rw [run_prefix]

example : let c := run demo 9 (start (demoSim 1 100) ())
    c.pc = .head ∧ c.sim.dt = 3 ∧ c.episodeBegins = (c.sim.episodeIsOver || decide (c.sim.timeStepIdx = 0)) := by
  decide +kernel

/-- C65 (refuted, time step size): the time step size is not saved.  The run below has just decided to do a step of size
3; the restarted run does one of size 1 (the initial time step size). -/
theorem C65_time_step_size_violated :
    let c := run demo 9 (start (demoSim 1 100) ())
    let c' := restarted (save c.sim) (demoSim 1 100) ()
    c.pc = .head ∧
    completedSteps ((run demo 20 c).trace.drop c.trace.length) = [3, 3] ∧
    completedSteps (run demo 20 c').trace = [1, 3] := by
  decide +kernel

/-- C65 (refuted, episodes): if the problem starts the next episode in `endEpisode` and the restart file is written after
that, then the restarted run never begins this episode. -/
theorem C65_episode_violated :
    let c := run demo 9 (start (demoSim 4 4) ())
    let c' := restarted (save c.sim) (demoSim 4 4) ()
    c.pc = .head ∧ c.trace.getLast? = some .endEpisode ∧
    (run demo 5 c).trace.drop c.trace.length = [.beginEpisode, .beginTimeStep, .integrated c.sim 4, .endTimeStep] ∧
    (run demo 4 c').trace = [.beginTimeStep, .integrated c.sim 4, .endTimeStep] := by
  decide +kernel

end Verif.Restart
