import Verif.RestartSim.Lemmas
import Verif.Restart.IntFormat
import Mathlib.Data.Rat.Denumerable

/-
C166: a simulation which is restarted computes the solutions of the uninterrupted one.
-/

set_option autoImplicit false
set_option linter.unusedSectionVars false

namespace Verif.RestartSim

open Verif.TimeLoop Verif.Balance Verif.Restart

section
variable {K W M C X : Type} {m p : ℕ} [Field K] [LinearOrder K] [IsStrictOrderedRing K] [AddCommGroup M] [Module K M]

/-- **C166** (file) Whatever the simulation did before, a process with the same grid reads the clock and the solution from the file as they
were when it was written, at any point of the run, whatever its solution was before; both time levels become the saved solution. -/
theorem C166_file (f : Physics K (Fin p → K) M C X m) (q : Numerics K (Fin p → K) W M X m) (h : Hooks K (Fin p → K) X)
    (y : Style K) (hI : y.integer.Lawful) (hK : y.number.Lawful) (hm : '\n' ∉ y.magic) (hc : '\n' ∉ y.cookie)
    (sim fresh : Sim K) (own own' : X) (s0 s : ℕ → Fin p → K) (hs : ∀ i, f.numCells ≤ i → s i = s0 i) (n : ℕ) :
    let c := run (problem f q h) n (start sim ⟨own, s0, s0⟩)
    ∃ r, restart y f.numCells (file y f.numCells c) fresh own' s = .ok r ∧
      r.prob = ⟨own', c.prob.sol0, c.prob.sol0⟩ ∧ save r.sim = save c.sim ∧
      r.sim.endTime = fresh.endTime ∧ r.sim.dt = fresh.dt ∧ r.sim.finishedFlag = fresh.finishedFlag := by
  intro c
  exact ⟨_, restart_ok f q h y hI hK hm hc sim fresh own own' s0 s hs n c rfl, rfl, rfl, rfl, rfl, rfl⟩

/-- **C166** (partial) A simulation which begins with any solution writes a restart file (after any number of steps, retries and episodes).
A new process with the same grid, problem and numerics reads it.  From there on it does what the first one would have done: after any
number of steps of the time loop they are at the same place, with the same clock, the same solutions at both time levels and the same
state of the problem, and have shown the same events.  Assumed, because the library does not ensure it (`C166_size_violated`,
`C166_episode_violated`): the new process begins with the time step size of the saved one, and no episode ended right before the file was
written; and, of the process itself: it has the end time and the finished flag of the saved one and restores the state of the problem. -/
theorem C166_continues_partial (f : Physics K (Fin p → K) M C X m) (q : Numerics K (Fin p → K) W M X m) (h : Hooks K (Fin p → K) X)
    (y : Style K) (hI : y.integer.Lawful) (hK : y.number.Lawful) (hm : '\n' ∉ y.magic) (hc : '\n' ∉ y.cookie)
    (sim fresh : Sim K) (own : X) (s0 s : ℕ → Fin p → K) (hs : ∀ i, f.numCells ≤ i → s i = s0 i) (n : ℕ)
    (hidx : 0 ≤ sim.timeStepIdx) :
    let c := run (problem f q h) n (start sim ⟨own, s0, s0⟩)
    c.pc = .restart → h.writeRestart c.prob.own c.prob.sol0 c.sim = some (c.prob.own, []) →
    c.trace.getLast? ≠ some .endEpisode →
    fresh.endTime = c.sim.endTime → fresh.finishedFlag = c.sim.finishedFlag → fresh.dt = c.sim.dt →
    ∃ r, restart y f.numCells (file y f.numCells c) fresh c.prob.own s = .ok r ∧
      ∀ k,
        let a := run (problem f q h) (n + 1 + k) (start sim ⟨own, s0, s0⟩)
        let b := run (problem f q h) k r
        a.pc = b.pc ∧ a.sim = b.sim ∧ a.prob = b.prob ∧ a.trace = c.trace ++ b.trace := by
  intro c hpc hw hlast hend hfin hdt
  have hl : c.prob.sol0 = c.prob.sol1 := by
    rcases run_level f q h sim own s0 n with h' | h' | h' | h' | h' | h'
    all_goals first | exact h' | exact absurd (hpc.symm.trans h') (by decide)
  have hr : restart y f.numCells (file y f.numCells c) fresh c.prob.own s = .ok (restarted (save c.sim) fresh c.prob) := by
    rw [restart_ok f q h y hI hK hm hc sim fresh own c.prob.own s0 s hs n c rfl]
    congr 2
    generalize c.prob = pr at hl
    obtain ⟨x, a, b⟩ := pr
    simp only at hl
    rw [hl]
  have hq : restore (save c.sim) fresh = c.sim := (C20_queries_agree c.sim fresh).2.2.2 hend hdt hfin
  have hmid := ((mid_run (problem f q h) sim ⟨own, s0, s0⟩ n).restart hpc).resolve_left hlast
  have hst := stepped_run (problem f q h) sim ⟨own, s0, s0⟩ n (.inr (.inr hpc))
  have hi : c.sim.timeStepIdx ≠ 0 := by
    have := (C17_clock (problem f q h) sim ⟨own, s0, s0⟩ n).2
    have hp := List.length_pos_of_ne_nil hst
    change c.sim.timeStepIdx = _ at this
    omega
  have hstep : step (problem f q h) c = { restarted (save c.sim) fresh c.prob with
      trace := c.trace ++ (restarted (save c.sim) fresh c.prob).trace } := by
    have hw' : (problem f q h).writeRestart c.prob c.sim = some (c.prob, []) := by
      simp only [problem, lift, hw, Option.map_some]
    have h1 : c.episodeBegins = false := hmid.1
    have h2 : c.sim.episodeIsOver = false := hmid.2
    unfold restarted start
    rw [hq, h2]
    simp only [step, hpc, call, hw', List.foldl_nil, h1, List.append_nil]
    simp [hi]
  refine ⟨_, hr, fun k => ?_⟩
  have hrun : run (problem f q h) (n + 1 + k) (start sim ⟨own, s0, s0⟩) = run (problem f q h) k (step (problem f q h) c) := by
    rw [← TimeLoop.run_succ]
    unfold run
    rw [Nat.add_comm (n + 1) k, Function.iterate_add_apply]
  intro a b
  have hab : a = { b with trace := c.trace ++ b.trace } := by
    change run _ _ _ = _
    rw [hrun, hstep, run_prefix]
  rw [hab]
  exact ⟨rfl, rfl, rfl, rfl⟩

end

/-! ### A cell whose contents decay -/

/-- Numbers which are written by their number in an enumeration of the rationals. -/
def ratFormat : Format ℚ where
  fmt x := intFormat.fmt (Encodable.encode x)
  numChar := intFormat.numChar
  conv cs := (intFormat.conv cs).bind fun z => Encodable.decode z.toNat
  zero := 0

theorem ratFormat_lawful : ratFormat.Lawful := by
  constructor
  · intro x
    exact intFormat_lawful.nonempty (Encodable.encode x : ℤ)
  · intro x
    exact intFormat_lawful.chars (Encodable.encode x : ℤ)
  · exact intFormat_lawful.blankSep
  · intro x
    have := intFormat_lawful.roundTrip (Encodable.encode x : ℤ)
    simp only [ratFormat, this, Option.bind_some, Int.toNat_natCast, Encodable.encodek]

def style : Style ℚ := ⟨intFormat, ratFormat, c!"magic", c!"cookie"⟩

/-- What is in the cell decays; the problem supplies as much as its state says. -/
def decay : Physics ℚ (Fin 1 → ℚ) ℚ Unit ℚ 1 where
  numCells := 1
  nb := fun _ => []
  area := fun _ => 1
  volume := fun _ => 1
  storage := fun _ x => (x, 1)
  flux := fun _ _ _ _ _ _ => (fun _ => 0, 0)
  source := fun own _ s i => (fun k => own - s i k, -1)
  boundary := fun _ _ _ => []

/-- The exact Newton method. -/
def exactly : Numerics ℚ (Fin 1 → ℚ) (Fin 1 → ℚ) ℚ ℚ 1 where
  weight := fun _ _ => 1
  tolerance := 1 / 100
  base := fun own _ dt old =>
    { numGridDof := 0, numTotalDof := 0, volume := fun _ => 0, weight := fun _ _ => 0, constraints := fun _ => none,
      beginIterationOk := fun _ => true, endIterationOk := fun _ => true, linearize := fun _ _ => .caught,
      solve := fun _ s => .update (fun i k => s i k - (old i k + dt * own) / (1 + dt)) true,
      updatePrimaryVariables := fun _ x u => fun k => x k - u k, subtract := fun x u => fun k => x k - u k, tolerance := 0, maxError := 1000,
      maxIterations := 10, targetIterations := 5 }
  leftError := fun _ _ _ _ => .nan
  leftLastError := fun _ _ _ _ => .num 3
  failure := fun _ _ _ _ _ _ => none
  system := fun _ _ _ _ _ => ⟨fun _ _ => 77, fun _ _ => 88⟩
  fuel := 20
  maxFails := 10
  minDt := 1 / 100
  continueOnError := false

/-- The problem supplies one more in each episode; episodes have length `len`; time steps have size 3 if possible. -/
def calls (len : ℚ) : Hooks ℚ (Fin 1 → ℚ) ℚ where
  beginEpisode := fun x _ _ => some (x + 1, [])
  endEpisode := fun x _ _ => some (x, [.startNextEpisode len])
  beginTimeStep := fun x _ _ => some (x, [])
  endTimeStep := fun x _ _ => some (x, [])
  writeOutput := fun x _ _ => some (x, [])
  advanceTimeLevel := fun x _ _ => some (x, [])
  writeRestart := fun x _ _ => some (x, [])
  finalize := fun x _ _ => some (x, [])
  nextTimeStepSize := fun _ _ _ => 3
  forcedTimeSteps := []

/-- A simulation of ten units of time whose first step has size `dt`. -/
def watch (dt len : ℚ) : Sim ℚ := ⟨0, 0, 10, dt, 0, 0, 0, len, false⟩

/-- The simulation after `n` steps of the time loop. -/
def whole (dt len : ℚ) (n : ℕ) : Conf ℚ (St (Fin 1 → ℚ) ℚ) :=
  run (problem decay exactly (calls len)) n (start (watch dt len) ⟨0, fun _ _ => 5, fun _ _ => 5⟩)

/-- After the first step the file is written; all hypotheses of `C166_continues_partial` are met, and the simulation goes on. -/
example : (whole 1 100 8).pc = .restart ∧ (whole 1 100 8).trace.getLast? ≠ some .endEpisode ∧
    (whole 1 100 8).sim.dt = 3 ∧ (whole 1 100 8).sim.time = 1 ∧ (whole 1 100 8).prob.sol0 0 0 = 3 ∧
    (whole 1 100 40).sim.time = 10 ∧ (whole 1 100 40).prob.sol0 0 0 = 33 / 32 := by
  decide +kernel

/-- **C166** (refuted, time step size) The file does not contain the time step size: a new process with the same parameters begins with the
size of the first time step of the simulation, not with that of the next one, and the solution at the end of the simulation is a different
one. -/
theorem C166_size_violated : ∃ r,
    (whole 1 100 8).pc = .restart ∧
    restart style decay.numCells (file style decay.numCells (whole 1 100 8)) (watch 1 100) (whole 1 100 8).prob.own (fun _ _ => 5) = .ok r ∧
    (run (problem decay exactly (calls 100)) 40 r).pc = .done ∧ (whole 1 100 40).pc = .done ∧
    (run (problem decay exactly (calls 100)) 40 r).sim.time = 10 ∧ (whole 1 100 40).sim.time = 10 ∧
    (run (problem decay exactly (calls 100)) 40 r).prob.sol0 0 0 ≠ (whole 1 100 40).prob.sol0 0 0 := by
  have hr := restart_ok decay exactly (calls 100) style intFormat_lawful ratFormat_lawful (by decide) (by decide) (watch 1 100) (watch 1 100) 0
    (whole 1 100 8).prob.own (fun _ _ => 5) (fun _ _ => 5) (fun _ _ => rfl) 8 (whole 1 100 8) rfl
  refine ⟨_, by decide +kernel, hr, ?_⟩
  decide +kernel

/-- **C166** (refuted, episodes) The file does not say that an episode is about to begin: here the problem starts the next episode when the
first one ends, and changes what it supplies when an episode begins.  The new process has the same parameters and even the time step size
of the saved one, but never begins that episode, and the solution at the end of the simulation is a different one. -/
theorem C166_episode_violated : ∃ r,
    (whole 1 1 8).pc = .restart ∧
    restart style decay.numCells (file style decay.numCells (whole 1 1 8)) (watch 1 1) (whole 1 1 8).prob.own (fun _ _ => 5) = .ok r ∧
    (watch 1 1).dt = (whole 1 1 8).sim.dt ∧
    (run (problem decay exactly (calls 1)) 120 r).pc = .done ∧ (whole 1 1 120).pc = .done ∧
    (run (problem decay exactly (calls 1)) 120 r).sim.time = 10 ∧ (whole 1 1 120).sim.time = 10 ∧
    (run (problem decay exactly (calls 1)) 120 r).prob.sol0 0 0 ≠ (whole 1 1 120).prob.sol0 0 0 := by
  have hr := restart_ok decay exactly (calls 1) style intFormat_lawful ratFormat_lawful (by decide) (by decide) (watch 1 1) (watch 1 1) 0
    (whole 1 1 8).prob.own (fun _ _ => 5) (fun _ _ => 5) (fun _ _ => rfl) 8 (whole 1 1 8) rfl
  refine ⟨_, by decide +kernel, hr, ?_⟩
  decide +kernel

end Verif.RestartSim
