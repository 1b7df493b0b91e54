import Mathlib.Algebra.Order.Field.Basic
import Mathlib.Algebra.Order.Group.Unbundled.Abs

set_option autoImplicit false
/-
Model of the time loop, `/repo/opm/models/utils/simulator.hh`.

The problem is an environment: every callback may do anything with its own state and may use the public
functions of the simulator (`Cmd`).  The functions `setTime` and `setTimeStepIndex`, with which a problem can set
the clock to arbitrary values, are not offered to callbacks.  A callback which throws ends the process
(`EWOMS_CATCH_PARALLEL_EXCEPTIONS_FATAL`, 61-84).  Scalars are elements of a linearly ordered field.
-/
namespace Verif.TimeLoop

variable {K : Type} [Field K] [LinearOrder K]

/-- `std::numeric_limits<double>::epsilon()*1e3`. -/
def eps (K : Type) [Field K] : K := 1000 / 2 ^ 52

/-- The clock of the simulator (members 966-987). -/
structure Sim (K : Type) where
  startTime : K
  time : K
  endTime : K
  dt : K
  timeStepIdx : ℤ
  episodeIdx : ℤ
  episodeStart : K
  episodeLength : K
  finishedFlag : Bool
  deriving DecidableEq

/-- `finished`, opm/models/utils/simulator.hh:481-488. -/
def Sim.finished (s : Sim K) : Bool :=
  let e := max |s.time| s.dt * eps K
  s.finishedFlag || decide (s.endTime ≤ s.time * (1 + e))

/-- `willBeFinished`, opm/models/utils/simulator.hh:494-499. -/
def Sim.willBeFinished (s : Sim K) : Bool :=
  s.finishedFlag || decide (s.endTime ≤ (s.time + s.dt) * (1 + eps K))

/-- `episodeStarts`, opm/models/utils/simulator.hh:583-588. -/
def Sim.episodeStarts (s : Sim K) : Bool :=
  decide (s.time ≤ (s.episodeStart - s.startTime) * (1 + eps K))

/-- `episodeIsOver`, opm/models/utils/simulator.hh:594-599. -/
def Sim.episodeIsOver (s : Sim K) : Bool :=
  decide ((s.episodeStart - s.startTime + s.episodeLength) * (1 - eps K) ≤ s.time)

/-- `episodeWillBeOver`, opm/models/utils/simulator.hh:605-611. -/
def Sim.episodeWillBeOver (s : Sim K) : Bool :=
  decide ((s.episodeStart - s.startTime + s.episodeLength) * (1 - eps K) ≤ s.time + s.dt)

/-- `episodeMaxTimeStepSize`, opm/models/utils/simulator.hh:617-631. -/
def Sim.episodeMaxTimeStepSize (s : Sim K) : K :=
  if s.episodeIsOver then 0
  else max 0 ((s.episodeStart + s.episodeLength) - (s.time + s.startTime))

/-- `maxTimeStepSize`, opm/models/utils/simulator.hh:505-512. -/
def Sim.maxTimeStepSize (s : Sim K) : K :=
  if s.finished then 0 else min s.episodeMaxTimeStepSize (max 0 (s.endTime - s.time))

/-- The public functions with which a callback can influence the clock: `setTimeStepSize` (437-438),
`setFinished` (472-473), `setEndTime` (366-367), `startNextEpisode` (534-539 and 520-525), `setEpisodeLength`
(569-570), `setEpisodeIndex` (546-547). -/
inductive Cmd (K : Type) where
  | setTimeStepSize (d : K)
  | setFinished (b : Bool)
  | setEndTime (t : K)
  | startNextEpisode (len : K)
  | startNextEpisodeAt (start len : K)
  | setEpisodeLength (len : K)
  | setEpisodeIndex (i : ℤ)

/-- Effect of a command. -/
def Cmd.run (s : Sim K) : Cmd K → Sim K
  | .setTimeStepSize d => { s with dt := d }
  | .setFinished b => { s with finishedFlag := b }
  | .setEndTime t => { s with endTime := t }
  | .startNextEpisode len =>
    { s with episodeIdx := s.episodeIdx + 1, episodeStart := s.startTime + s.time, episodeLength := len }
  | .startNextEpisodeAt start len =>
    { s with episodeIdx := s.episodeIdx + 1, episodeStart := start, episodeLength := len }
  | .setEpisodeLength len => { s with episodeLength := len }
  | .setEpisodeIndex i => { s with episodeIdx := i }

/-- A callback: `none` means that it throws. -/
abbrev Callback (K σ : Type) := σ → Sim K → Option (σ × List (Cmd K))

/-- The problem.  `writeOutput` stands for `shouldWriteOutput` and `writeOutput`, `writeRestart` for
`shouldWriteRestartFile` and the serialization. -/
structure Problem (K σ : Type) where
  beginEpisode : Callback K σ
  endEpisode : Callback K σ
  beginTimeStep : Callback K σ
  endTimeStep : Callback K σ
  writeOutput : Callback K σ
  advanceTimeLevel : Callback K σ
  writeRestart : Callback K σ
  finalize : Callback K σ
  timeIntegration : σ → Sim K → Option (σ × K)   -- the new time step size (retries), or an exception
  nextTimeStepSize : σ → Sim K → K
  forcedTimeSteps : List K

/-- Observable events of a run. -/
inductive Event (K : Type) where
  | beginEpisode
  | endEpisode
  | beginTimeStep
  | integrated (before : Sim K) (dt : K)   -- clock at the beginning, time step size at the end of the integration
  | endTimeStep
  | advanced (dt : K)                      -- the clock was advanced by dt
  | finalized
  deriving DecidableEq

/-- Positions in `run`, opm/models/utils/simulator.hh:643-814. -/
inductive Pc where
  | head        -- 697: while (!finished())
  | beginEp     -- 702
  | beginStep   -- 723
  | endStepStop -- 728
  | endEpStop   -- 707, 729
  | integrate   -- 738
  | endStep     -- 760
  | output      -- 765-766
  | advance     -- 770-783
  | endEp       -- 787-790
  | select      -- 792-801
  | restart     -- 807-808
  | fin         -- 813
  | done
  | aborted     -- a callback threw
  | thrown      -- the time integration threw
  deriving DecidableEq

/-- State of a run. -/
structure Conf (K σ : Type) where
  pc : Pc
  sim : Sim K
  prob : σ
  episodeBegins : Bool
  trace : List (Event K)

variable {σ : Type}

/-- Calls a callback, logs the event, and continues. -/
def call (cb : Callback K σ) (c : Conf K σ) (ev : List (Event K)) (k : Conf K σ → Conf K σ) : Conf K σ :=
  match cb c.prob c.sim with
  | none => { c with pc := .aborted, trace := c.trace ++ ev }
  | some (p, cmds) => k { c with prob := p, sim := cmds.foldl Cmd.run c.sim, trace := c.trace ++ ev }

/-- One step of `run`, opm/models/utils/simulator.hh:695-813. -/
def step (P : Problem K σ) (c : Conf K σ) : Conf K σ :=
  match c.pc with
  | .head =>
    if c.sim.finished then { c with pc := .fin }
    else if c.episodeBegins then { c with pc := .beginEp }
    else { c with pc := .beginStep }
  | .beginEp => call P.beginEpisode c [.beginEpisode] fun c =>
      if c.sim.finished then { c with pc := .endEpStop } else { c with pc := .beginStep, episodeBegins := false }
  | .beginStep => call P.beginTimeStep c [.beginTimeStep] fun c =>
      if c.sim.finished then { c with pc := .endStepStop } else { c with pc := .integrate }
  | .endStepStop => call P.endTimeStep c [.endTimeStep] fun c => { c with pc := .endEpStop }
  | .endEpStop => call P.endEpisode c [.endEpisode] fun c => { c with pc := .fin }
  | .integrate =>
    match P.timeIntegration c.prob c.sim with
    | none => { c with pc := .thrown }
    | some (p, d) =>
      { c with pc := .endStep, prob := p, sim := { c.sim with dt := d },
               trace := c.trace ++ [.integrated c.sim d] }
  | .endStep => call P.endTimeStep c [.endTimeStep] fun c => { c with pc := .output }
  | .output => call P.writeOutput c [] fun c => { c with pc := .advance }
  | .advance =>
    let oldDt := c.sim.dt
    call P.advanceTimeLevel c [] fun c =>
      let sim := { c.sim with time := c.sim.time + oldDt, timeStepIdx := c.sim.timeStepIdx + 1 }
      { c with sim := sim, pc := if sim.episodeIsOver then .endEp else .select,
               trace := c.trace ++ [.advanced oldDt] }
  | .endEp => call P.endEpisode c [.endEpisode] fun c => { c with pc := .restart, episodeBegins := true }
  | .select =>
    let d := if c.sim.timeStepIdx < P.forcedTimeSteps.length then P.forcedTimeSteps.getD c.sim.timeStepIdx.toNat 0
      else min c.sim.maxTimeStepSize (P.nextTimeStepSize c.prob c.sim)
    { c with pc := .restart, sim := { c.sim with dt := d } }
  | .restart => call P.writeRestart c [] fun c => { c with pc := .head }
  | .fin => call P.finalize c [.finalized] fun c => { c with pc := .done }
  | .done => c
  | .aborted => c
  | .thrown => c

/-- The beginning of the time loop, opm/models/utils/simulator.hh:695 (after the initial solution was applied, or a restart file
was read). -/
def start (sim : Sim K) (p : σ) : Conf K σ :=
  { pc := .head, sim := sim, prob := p, trace := [],
    episodeBegins := sim.episodeIsOver || decide (sim.timeStepIdx = 0) }

/-- The first `n` steps of a run. -/
def run (P : Problem K σ) (n : ℕ) (c : Conf K σ) : Conf K σ := (step P)^[n] c

end Verif.TimeLoop
