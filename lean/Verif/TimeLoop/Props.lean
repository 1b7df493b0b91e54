import Verif.TimeLoop.EndLemmas
import Mathlib.Algebra.Order.Ring.Rat
import Mathlib.Tactic.Linarith

set_option autoImplicit false
/-
Properties C17, C18, C19, C61, C62, C63: the time loop.
-/
namespace Verif.TimeLoop
set_option linter.unusedSectionVars false

variable {K : Type} [Field K] [LinearOrder K] [IsStrictOrderedRing K] {σ : Type}

/-! ### a concrete problem for the examples -/

/-- A callback which does nothing. -/
def noop : Callback ℚ Unit := fun _ _ => some ((), [])

/-- A problem which asks for steps of size 3 and whose time integration halves steps larger than 4. -/
def demo : Problem ℚ Unit where
  beginEpisode := noop
  endEpisode := fun _ _ => some ((), [.startNextEpisode 4])
  beginTimeStep := noop
  endTimeStep := noop
  writeOutput := noop
  advanceTimeLevel := noop
  writeRestart := noop
  finalize := noop
  timeIntegration := fun _ s => some ((), if 4 < s.dt then s.dt / 2 else s.dt)
  nextTimeStepSize := fun _ _ => 3
  forcedTimeSteps := []

/-- A clock: simulation of 10 time units, first time step `d`, first episode of length `len`. -/
def demoSim (d len : ℚ) : Sim ℚ := ⟨0, 0, 10, d, 0, 0, 0, len, false⟩

/-! ### C17 -/

/-- C17 (clock): whatever the callbacks do, at every point of a run the time is the time of the beginning plus the
sizes of the completed steps, and the step index is the index at the beginning plus their number. -/
theorem C17_clock (P : Problem K σ) (sim : Sim K) (p : σ) (n : ℕ) :
    let c := run P n (start sim p)
    c.sim.time = sim.time + (completedSteps c.trace).sum ∧
    c.sim.timeStepIdx = sim.timeStepIdx + (completedSteps c.trace).length :=
  run_inv (ClockInv sim.time sim.timeStepIdx) (clockInv_step P sim.time sim.timeStepIdx)
    (by simp [ClockInv, start, completedSteps]) n

example : (completedSteps (run demo 100 (start (demoSim 1 4) ())).trace) = [1, 3, 3, 1, 1, 1] := by decide +kernel
example : (run demo 100 (start (demoSim 1 4) ())).sim.time = 10 := by decide +kernel

/-- C17 (monotonicity): the step index never decreases; nor does the time if no completed step has a negative
size. -/
theorem C17_monotone (P : Problem K σ) (sim : Sim K) (p : σ) (n m : ℕ) (h : n ≤ m) :
    (run P n (start sim p)).sim.timeStepIdx ≤ (run P m (start sim p)).sim.timeStepIdx ∧
    ((∀ d ∈ completedSteps (run P m (start sim p)).trace, 0 ≤ d) →
      (run P n (start sim p)).sim.time ≤ (run P m (start sim p)).sim.time) := by
  obtain ⟨k, rfl⟩ := Nat.exists_eq_add_of_le h
  obtain ⟨u, hu⟩ := run_trace_mono P (start sim p) n k
  obtain ⟨h1, h2⟩ := C17_clock P sim p n
  obtain ⟨h3, h4⟩ := C17_clock P sim p (n + k)
  rw [h1, h2, h3, h4, hu, completedSteps_append]
  refine ⟨by simp, fun hp => ?_⟩
  have : 0 ≤ (completedSteps u).sum := List.sum_nonneg fun d hd => hp d (by simp [hd])
  simp only [List.sum_append]
  linarith

/-- C17 (integrated size): if `endTimeStep` and `writeOutput` do not change the time step size, then every
completed step advanced the clock by exactly the size with which it was integrated, beginning at the time to which
the steps before it had advanced the clock. -/
theorem C17_integrated_size_partial (P : Problem K σ) (sim : Sim K) (p : σ)
    (he : ∀ p s r, P.endTimeStep p s = some r → ∀ d, Cmd.setTimeStepSize d ∉ r.2)
    (ho : ∀ p s r, P.writeOutput p s = some r → ∀ d, Cmd.setTimeStepSize d ∉ r.2)
    (n : ℕ) (before after : List (Event K)) (d : K)
    (h : (run P n (start sim p)).trace = before ++ .advanced d :: after) :
    ∃ b s, before = b ++ [.integrated s d, .endTimeStep] ∧ s.time = sim.time + (completedSteps b).sum := by
  have := run_inv (P := P) (c := start sim p)
    (fun c => ClockInv sim.time sim.timeStepIdx c ∧ SizeInv sim.time c)
    (fun c hc => ⟨clockInv_step P _ _ c hc.1, sizeInv_step P _ he ho c hc.1.1 hc.2⟩)
    ⟨by simp [ClockInv, start, completedSteps], by
      refine ⟨?_, trivial⟩
      intro l r d h
      simp [start] at h⟩ n
  exact this.2.1 _ _ _ h

example (n : ℕ) (before after : List (Event ℚ)) (d : ℚ)
    (h : (run demo n (start (demoSim 1 4) ())).trace = before ++ .advanced d :: after) :
    ∃ b s, before = b ++ [.integrated s d, .endTimeStep] ∧ s.time = 0 + (completedSteps b).sum :=
  C17_integrated_size_partial demo _ _ (by intro p s r h; cases h; simp) (by intro p s r h; cases h; simp) n _ _ _ h

/-- C17 (refuted in general): the time step size is read after `endTimeStep` and the output, so a problem which
chooses the size of the *next* step there falsifies the clock: a step of size 1 advances the time by 2. -/
theorem C17_integrated_size_violated :
    ∃ (P : Problem ℚ Unit) (s : Sim ℚ), (run P 7 (start (demoSim 1 100) ())).trace =
      [.beginEpisode, .beginTimeStep, .integrated s 1, .endTimeStep, .advanced 2] := by
  refine ⟨{ demo with endTimeStep := fun _ _ => some ((), [.setTimeStepSize 2]) }, demoSim 1 100, ?_⟩
  decide +kernel

/-! ### C18 -/

/-- C18: the events of a run are legal for every behaviour of the callbacks and at every point of the run: the run
begins between two episodes, or (after a restart) within one.  A regular end is the end of the sequence, and an
exception of the time integration leaves within a time step. -/
theorem C18_bracketed (P : Problem K σ) (sim : Sim K) (p : σ) (n : ℕ) :
    let c := run P n (start sim p)
    let first := if sim.episodeIsOver || decide (sim.timeStepIdx = 0) then Phase.betweenEpisodes else .inEpisode
    (phaseAfter first c.trace).isSome ∧
    (c.pc = .done → phaseAfter first c.trace = some .over) ∧
    (c.pc = .thrown → phaseAfter first c.trace = some .stepBegun) := by
  intro c first
  have h : PhaseInv first c := run_inv (PhaseInv first) (phaseInv_step P first)
    (by simp only [PhaseInv, start, phaseAfter, List.foldl_nil]; rfl) n
  clear_value c first
  obtain ⟨pc, s, q, eb, t⟩ := c
  cases pc
  case endEpStop => rcases h with h | h <;> simp only at h <;> simp [h]
  case beginStep => rcases h with ⟨h | h, -⟩ <;> simp only at h <;> simp [h]
  case fin => rcases h with h | h | h <;> simp only at h <;> simp [h]
  all_goals
    simp only [PhaseInv] at h
    simp_all

example : (run demo 100 (start (demoSim 5 4) ())).pc = .done := by decide +kernel
example : (run demo 100 (start (demoSim 5 4) ())).trace.count .beginTimeStep = 5 := by decide +kernel

/-- C18: the last episode is not ended if the simulation ends within it. -/
theorem C18_last_episode_may_stay_open :
    ∃ s d, (run { demo with timeIntegration := fun _ s => some ((), s.dt) } 20 (start (demoSim 10 100) ())).trace =
      [.beginEpisode, .beginTimeStep, .integrated s d, .endTimeStep, .advanced d, .finalized] :=
  ⟨demoSim 10 100, 10, by decide +kernel⟩

/-! ### C19 -/

/-- C19 (partial): without forced time steps, and if `beginTimeStep` and the writing of restart files leave the
clock alone, every time step which follows another one in the same episode is begun with a size which does not
cross the end of the simulation or of the episode.  What is missing: the first step of an episode (see below). -/
theorem C19_no_crossing_partial (P : Problem K σ) (hf : P.forcedTimeSteps = []) (hb : Quiet P.beginTimeStep)
    (hr : Quiet P.writeRestart) (sim : Sim K) (p : σ) (hi : 0 ≤ sim.timeStepIdx) (n : ℕ)
    (l r : List (Event K)) (d d' : K) (s : Sim K)
    (h : (run P n (start sim p)).trace = l ++ [.advanced d, .beginTimeStep, .integrated s d'] ++ r)
    (h0 : 0 ≤ s.time) :
    s.time + s.dt ≤ s.endTime ∧ s.startTime + (s.time + s.dt) ≤ s.episodeStart + s.episodeLength := by
  have := run_inv (P := P) (c := start sim p)
    (fun c => ClockInv sim.time sim.timeStepIdx c ∧ CrossInv c)
    (fun c hc => ⟨clockInv_step P _ _ c hc.1,
      crossInv_step P hf hb hr c (by rw [hc.1.2]; positivity) hc.2⟩)
    ⟨by simp [ClockInv, start, completedSteps], by
      refine ⟨?_, ?_⟩
      · intro l r d s d' h
        simp [start] at h
      · rintro ⟨l, d, h⟩
        simp [start] at h⟩ n
  exact this.2.1 _ _ _ _ _ h h0

example (n : ℕ) (l r : List (Event ℚ)) (d d' : ℚ) (s : Sim ℚ)
    (h : (run demo n (start (demoSim 1 4) ())).trace = l ++ [.advanced d, .beginTimeStep, .integrated s d'] ++ r)
    (h0 : 0 ≤ s.time) :
    s.time + s.dt ≤ s.endTime ∧ s.startTime + (s.time + s.dt) ≤ s.episodeStart + s.episodeLength :=
  C19_no_crossing_partial demo rfl (by intro p s r h; cases h; rfl) (by intro p s r h; cases h; rfl)
    _ _ (by decide) n l r d d' s h h0

/-- C19 (the size of the next step is positive as long as there is something left to simulate, so the assertion in
line 800 holds). -/
theorem C19_positive (s : Sim K) (x : K) (hx : 0 < x) (h0 : 0 ≤ s.time) (hf : s.finished = false)
    (ho : s.episodeIsOver = false) : 0 < min s.maxTimeStepSize x := by
  have ht := time_lt_end h0 hf
  have he := time_lt_episodeEnd h0 ho
  refine lt_min ?_ hx
  unfold Sim.maxTimeStepSize Sim.episodeMaxTimeStepSize
  rw [hf, ho]
  simp only [Bool.false_eq_true, if_false, lt_min_iff, lt_max_iff]
  exact ⟨Or.inr (by linarith), Or.inr (by linarith)⟩

example : (demoSim 1 4).finished = false ∧ (demoSim 1 4).episodeIsOver = false := by decide +kernel

/-- C19 (refuted for the first step of an episode): the size of the last step is used for it.  With episodes of
length 4 and a simulation of 10 time units the third step goes from 8 to 12. -/
theorem C19_first_step_of_episode_violated :
    ∃ s : Sim ℚ, Event.integrated s 4 ∈ (run demo 100 (start (demoSim 4 4) ())).trace ∧
      s.time = 8 ∧ s.endTime = 10 ∧ (run demo 100 (start (demoSim 4 4) ())).sim.time = 12 := by
  exact ⟨⟨0, 8, 10, 4, 2, 2, 8, 4, false⟩, by decide +kernel, rfl, rfl, by decide +kernel⟩

/-! ### C61 -/

/-- C61: if the time integration never accepts steps smaller than some positive size, then every run ends. -/
theorem C61_run_ends [Archimedean K] (P : Problem K σ) (δ : K) (hδ : 0 < δ) (hk : KeepsEndTime P)
    (hi : ∀ p s r, P.timeIntegration p s = some r → δ ≤ r.2)
    (he : ∀ p s r, P.endTimeStep p s = some r → ∀ d, Cmd.setTimeStepSize d ∉ r.2)
    (ho : ∀ p s r, P.writeOutput p s = some r → ∀ d, Cmd.setTimeStepSize d ∉ r.2)
    (sim : Sim K) (p : σ) (ht : 0 ≤ sim.time) : ∃ n, Ended (run P n (start sim p)) := by
  obtain ⟨N, hN⟩ := Archimedean.arch (sim.endTime - sim.time) hδ
  rw [nsmul_eq_mul] at hN
  exact ends_main P δ sim.endTime hδ hk hi he ho N (start sim p) rfl ht rfl hN

example : ∃ n, Ended (run { demo with timeIntegration := fun _ s => some ((), max 1 s.dt) } n
    (start (demoSim 1 4) ())) :=
  C61_run_ends _ 1 (by norm_num)
    (by
      intro cb hcb p s r h t
      simp only [demo, List.mem_cons, List.not_mem_nil, or_false] at hcb
      rcases hcb with h' | h' | h' | h' | h' | h' | h' | h' <;> subst h' <;> cases h <;> simp)
    (by intro p s r h; cases h; exact le_max_left _ _)
    (by intro p s r h; cases h; simp) (by intro p s r h; cases h; simp) _ _ (by norm_num [demoSim])

/-- C61: once ended, a run stays ended. -/
theorem C61_ended_stays (P : Problem K σ) (c : Conf K σ) (h : Ended c) (n : ℕ) : run P n c = c := by
  induction n with
  | zero => rfl
  | succ n ih =>
    rw [run_succ, ih]
    obtain ⟨pc, _, _, _, _⟩ := c
    rcases h with h | h | h <;> simp only at h <;> subst h <;> rfl

/-! ### C62 -/

/-- C62 (refuted): the tolerance of the comparison with the end time is multiplied by the time itself.  A simulation
of 10020000000 seconds (318 years) with steps of 10^10 seconds ends after the first step, 20000000 seconds (more
than 7 months) early. -/
theorem C62_runs_until_end_violated :
    let c := run demo 20 (start (⟨0, 0, 10020000000, 20000000000, 0, 0, 0, 100000000000, false⟩ : Sim ℚ) ())
    c.pc = .done ∧ c.sim.time = 10000000000 ∧ c.sim.endTime = 10020000000 := by
  decide +kernel

/-- The finished flag is not set. -/
theorem cmds_flag (cmds : List (Cmd K)) (s : Sim K) (h : ∀ b, Cmd.setFinished b ∉ cmds) :
    (cmds.foldl Cmd.run s).finishedFlag = s.finishedFlag := by
  induction cmds generalizing s with
  | nil => simp
  | cons c cs ih =>
    simp only [List.foldl_cons]
    rw [ih _ (fun d hd => h d (by simp [hd]))]
    cases c with
    | setFinished d => exact absurd (by simp) (h d)
    | _ => simp [Cmd.run]

/-- C62 (partial): a run which the problem does not stop ends regularly only when the end time is reached up to the
tolerance of `finished`: a relative error of `10³ε·max(|time|, dt)`.  What is missing: that this error is small,
which is only so for times of the order of a second. -/
theorem C62_runs_until_end_partial (P : Problem K σ) (hk : KeepsEndTime P) (hs : NeverStops P) (sim : Sim K) (p : σ)
    (hflag : sim.finishedFlag = false) (n : ℕ) (hd : (run P n (start sim p)).pc = .done) :
    ∃ d : K, let s := (run P n (start sim p)).sim
      s.endTime = sim.endTime ∧ sim.endTime ≤ s.time * (1 + max |s.time| d * eps K) := by
  have hke : ∀ cb ∈ [P.beginEpisode, P.endEpisode, P.beginTimeStep, P.endTimeStep, P.writeOutput,
      P.advanceTimeLevel, P.writeRestart, P.finalize], ∀ p s q cmds, cb p s = some (q, cmds) →
      (cmds.foldl Cmd.run s).endTime = s.endTime ∧ (cmds.foldl Cmd.run s).finishedFlag = s.finishedFlag ∧
      (cmds.foldl Cmd.run s).time = s.time := fun cb hcb p s q cmds h =>
    ⟨cmds_end _ _ (hk cb hcb p s _ h), cmds_flag _ _ (hs cb hcb p s _ h), (cmds_clock cmds s).1⟩
  have key : ∀ s : Sim K, s.finishedFlag = false → s.finished = true →
      ∃ d : K, s.endTime ≤ s.time * (1 + max |s.time| d * eps K) := by
    intro s h1 h2
    simp only [Sim.finished, h1, Bool.false_or, decide_eq_true_eq] at h2
    exact ⟨s.dt, h2⟩
  have := run_inv (P := P) (c := start sim p)
    (fun c => c.sim.finishedFlag = false ∧ c.sim.endTime = sim.endTime ∧
      (c.pc = .endStepStop ∨ c.pc = .endEpStop ∨ c.pc = .fin ∨ c.pc = .done →
        ∃ d : K, c.sim.endTime ≤ c.sim.time * (1 + max |c.sim.time| d * eps K))) ?_ ?_ n
  · obtain ⟨_, h2, h3⟩ := this
    obtain ⟨d, hd⟩ := h3 (Or.inr (Or.inr (Or.inr hd)))
    exact ⟨d, h2, h2 ▸ hd⟩
  · rintro ⟨pc, s, q, eb, t⟩ ⟨h1, h2, h3⟩
    simp only at h1 h2 h3
    cases pc
    case head =>
      simp only [step]
      split_ifs with hf
      · exact ⟨h1, h2, fun _ => key s h1 hf⟩
      · exact ⟨h1, h2, by simp⟩
      · exact ⟨h1, h2, by simp⟩
    case beginEp =>
      simp only [step, call]
      split
      · exact ⟨h1, h2, by simp⟩
      · rename_i hcb
        obtain ⟨a, b, e⟩ := hke P.beginEpisode (by simp) _ _ _ _ hcb
        split_ifs with hf
        · exact ⟨b.trans h1, a.trans h2, fun _ => key _ (b.trans h1) hf⟩
        · exact ⟨b.trans h1, a.trans h2, by simp⟩
    case beginStep =>
      simp only [step, call]
      split
      · exact ⟨h1, h2, by simp⟩
      · rename_i hcb
        obtain ⟨a, b, e⟩ := hke P.beginTimeStep (by simp) _ _ _ _ hcb
        split_ifs with hf
        · exact ⟨b.trans h1, a.trans h2, fun _ => key _ (b.trans h1) hf⟩
        · exact ⟨b.trans h1, a.trans h2, by simp⟩
    case endStepStop =>
      simp only [step, call]
      split
      · exact ⟨h1, h2, by simp⟩
      · rename_i hcb
        obtain ⟨a, b, e⟩ := hke P.endTimeStep (by simp) _ _ _ _ hcb
        refine ⟨b.trans h1, a.trans h2, fun _ => ?_⟩
        simpa [a, e] using h3 (by simp)
    case endEpStop =>
      simp only [step, call]
      split
      · exact ⟨h1, h2, by simp⟩
      · rename_i hcb
        obtain ⟨a, b, e⟩ := hke P.endEpisode (by simp) _ _ _ _ hcb
        refine ⟨b.trans h1, a.trans h2, fun _ => ?_⟩
        simpa [a, e] using h3 (by simp)
    case fin =>
      simp only [step, call]
      split
      · exact ⟨h1, h2, by simp⟩
      · rename_i hcb
        obtain ⟨a, b, e⟩ := hke P.finalize (by simp) _ _ _ _ hcb
        refine ⟨b.trans h1, a.trans h2, fun _ => ?_⟩
        simpa [a, e] using h3 (by simp)
    case integrate =>
      simp only [step]
      split <;> exact ⟨h1, h2, by simp⟩
    case endStep =>
      simp only [step, call]
      split
      · exact ⟨h1, h2, by simp⟩
      · rename_i hcb
        obtain ⟨a, b, e⟩ := hke P.endTimeStep (by simp) _ _ _ _ hcb
        exact ⟨b.trans h1, a.trans h2, by simp⟩
    case output =>
      simp only [step, call]
      split
      · exact ⟨h1, h2, by simp⟩
      · rename_i hcb
        obtain ⟨a, b, e⟩ := hke P.writeOutput (by simp) _ _ _ _ hcb
        exact ⟨b.trans h1, a.trans h2, by simp⟩
    case advance =>
      simp only [step, call]
      split
      · exact ⟨h1, h2, by simp⟩
      · rename_i hcb
        obtain ⟨a, b, e⟩ := hke P.advanceTimeLevel (by simp) _ _ _ _ hcb
        refine ⟨b.trans h1, a.trans h2, ?_⟩
        simp only
        split_ifs <;> simp
    case endEp =>
      simp only [step, call]
      split
      · exact ⟨h1, h2, by simp⟩
      · rename_i hcb
        obtain ⟨a, b, e⟩ := hke P.endEpisode (by simp) _ _ _ _ hcb
        exact ⟨b.trans h1, a.trans h2, by simp⟩
    case select =>
      simp only [step]
      exact ⟨h1, h2, by simp⟩
    case restart =>
      simp only [step, call]
      split
      · exact ⟨h1, h2, by simp⟩
      · rename_i hcb
        obtain ⟨a, b, e⟩ := hke P.writeRestart (by simp) _ _ _ _ hcb
        exact ⟨b.trans h1, a.trans h2, by simp⟩
    case done => exact ⟨h1, h2, h3⟩
    case aborted => exact ⟨h1, h2, h3⟩
    case thrown => exact ⟨h1, h2, h3⟩
  · exact ⟨hflag, rfl, by simp [start]⟩

example : KeepsEndTime demo ∧ NeverStops demo ∧ (run demo 100 (start (demoSim 5 4) ())).pc = .done := by
  refine ⟨?_, ?_, by decide +kernel⟩ <;>
  · intro cb hcb p s r h t
    simp only [demo, List.mem_cons, List.not_mem_nil, or_false] at hcb
    rcases hcb with h' | h' | h' | h' | h' | h' | h' | h' <;> subst h' <;> cases h <;> simp

/-! ### C63 -/

/-- C63 (episodes): whenever a time step has been integrated, `episodeWillBeOver` predicts what happens: if the callbacks which follow do
not change the clock and do not throw, then the clock is advanced by the size of the step, and after that the episode is ended if and only if
`episodeWillBeOver` said so, and `episodeIsOver` says so then. -/
theorem C63_episodeWillBeOver (P : Problem K σ) (c : Conf K σ) (hpc : c.pc = .endStep)
    (h1 : ∀ p s, ∃ q, P.endTimeStep p s = some (q, [])) (h2 : ∀ p s, ∃ q, P.writeOutput p s = some (q, []))
    (h3 : ∀ p s, ∃ q, P.advanceTimeLevel p s = some (q, [])) :
    (run P 3 c).sim.episodeIsOver = c.sim.episodeWillBeOver ∧
    (run P 4 c).trace = c.trace ++ [.endTimeStep, .advanced c.sim.dt] ++ (if c.sim.episodeWillBeOver then [.endEpisode] else []) := by
  obtain ⟨pc, sim, pr, eb, t⟩ := c
  simp only at hpc
  subst hpc
  obtain ⟨q1, e1⟩ := h1 pr sim
  obtain ⟨q2, e2⟩ := h2 q1 sim
  obtain ⟨q3, e3⟩ := h3 q2 sim
  have r3 : run P 3 (⟨.endStep, sim, pr, eb, t⟩ : Conf K σ) =
      ⟨if Sim.episodeIsOver { sim with time := sim.time + sim.dt, timeStepIdx := sim.timeStepIdx + 1 } then .endEp else .select,
        { sim with time := sim.time + sim.dt, timeStepIdx := sim.timeStepIdx + 1 }, q3, eb, t ++ [.endTimeStep, .advanced sim.dt]⟩ := by
    rw [run_succ, run_succ, run_succ]
    simp [run, step, call, e1, e2, e3]
  have ho : Sim.episodeIsOver { sim with time := sim.time + sim.dt, timeStepIdx := sim.timeStepIdx + 1 } = sim.episodeWillBeOver := rfl
  rw [run_succ P 3, r3, ho]
  refine ⟨ho, ?_⟩
  cases sim.episodeWillBeOver
  · simp [step]
  · simp only [if_true, step, call]
    split <;> simp

example : let c := run demo 4 (start (demoSim 4 4) ())
    c.pc = .endStep ∧ c.sim.episodeWillBeOver = true ∧ (run demo 4 c).trace = c.trace ++ [.endTimeStep, .advanced 4, .endEpisode] := by
  decide +kernel

example : let c := run demo 4 (start (demoSim 1 4) ())
    c.pc = .endStep ∧ c.sim.episodeWillBeOver = false ∧ (run demo 4 c).trace = c.trace ++ [.endTimeStep, .advanced 1] := by
  decide +kernel

/-- C63 (partial): if `willBeFinished` says so, then the simulation is finished after the step, provided the time is
then at least one second.  What is missing: the converse, which is false (next theorem), and earlier times. -/
theorem C63_willBeFinished_partial (s : Sim K) (h1 : 1 ≤ s.time + s.dt) (h : s.willBeFinished = true) :
    Sim.finished { s with time := s.time + s.dt, timeStepIdx := s.timeStepIdx + 1 } = true := by
  simp only [Sim.willBeFinished, Sim.finished, Bool.or_eq_true, decide_eq_true_eq] at h ⊢
  rcases h with h | h
  · exact Or.inl h
  · right
    refine h.trans ?_
    have he := eps_pos (K := K)
    have : (1 : K) ≤ max |s.time + s.dt| s.dt := le_trans h1 (le_trans (le_abs_self _) (le_max_left _ _))
    have h2 : eps K ≤ max |s.time + s.dt| s.dt * eps K := by nlinarith
    nlinarith

/-- C63 (refuted): a step can finish the simulation without having been announced by `willBeFinished`. -/
theorem C63_willBeFinished_violated :
    ∃ s : Sim ℚ, s.willBeFinished = false ∧
      Sim.finished { s with time := s.time + s.dt, timeStepIdx := s.timeStepIdx + 1 } = true :=
  ⟨{ demoSim 0 0 with dt := 10000000000, endTime := 10020000000 }, by decide +kernel, by decide +kernel⟩

end Verif.TimeLoop
