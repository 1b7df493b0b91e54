import Verif.TimeLoop.Spec
import Mathlib.Tactic.Linarith
import Mathlib.Tactic.Ring
import Mathlib.Tactic.Positivity
import Mathlib.Tactic.NormNum
import Mathlib.Tactic.Push
import Mathlib.Tactic.SplitIfs
import Mathlib.Algebra.BigOperators.Group.List.Basic
import Mathlib.Logic.Function.Iterate

set_option autoImplicit false

namespace Verif.TimeLoop
set_option linter.unusedSectionVars false

variable {K : Type} [Field K] [LinearOrder K] {σ : Type}

theorem phaseAfter_append (p : Phase) (t : List (Event K)) (e : Event K) :
    phaseAfter p (t ++ [e]) = (phaseAfter p t).bind (·.next e) := by
  simp [phaseAfter, List.foldl_append]

theorem completedSteps_append (t u : List (Event K)) :
    completedSteps (t ++ u) = completedSteps t ++ completedSteps u := by
  induction t with
  | nil => rfl
  | cons e t ih => cases e <;> simp [completedSteps, ih]

theorem run_succ (P : Problem K σ) (n : ℕ) (c : Conf K σ) : run P (n + 1) c = step P (run P n c) := by
  simp [run, Function.iterate_succ_apply']

/-- An invariant of `step` holds along a run. -/
theorem run_inv {P : Problem K σ} (I : Conf K σ → Prop) (h : ∀ c, I c → I (step P c)) {c : Conf K σ} (h0 : I c)
    (n : ℕ) : I (run P n c) := by
  induction n with
  | zero => exact h0
  | succ n ih => rw [run_succ]; exact h _ ih

/-- The phase which belongs to a position of the program. -/
def PhaseInv (p : Phase) (c : Conf K σ) : Prop :=
  let q := phaseAfter p c.trace
  match c.pc with
  | .head => q = some (if c.episodeBegins then .betweenEpisodes else .inEpisode)
  | .beginEp => q = some .betweenEpisodes
  | .beginStep => (q = some .inEpisode ∨ q = some .episodeBegun) ∧ c.episodeBegins = false
  | .endStepStop => q = some .stepBegun
  | .endEpStop => q = some .episodeBegun ∨ q = some .stepCancelled
  | .integrate => q = some .stepBegun ∧ c.episodeBegins = false
  | .endStep => q = some .stepIntegrated ∧ c.episodeBegins = false
  | .output => q = some .stepEnded ∧ c.episodeBegins = false
  | .advance => q = some .stepEnded ∧ c.episodeBegins = false
  | .endEp => q = some .inEpisode ∧ c.episodeBegins = false
  | .select => q = some .inEpisode ∧ c.episodeBegins = false
  | .restart => q = some (if c.episodeBegins then .betweenEpisodes else .inEpisode)
  | .fin => q = some .inEpisode ∨ q = some .betweenEpisodes ∨ q = some .episodeCancelled
  | .done => q = some .over
  | .aborted => q.isSome
  | .thrown => q = some .stepBegun

theorem phaseInv_step (P : Problem K σ) (p : Phase) (c : Conf K σ) (h : PhaseInv p c) :
    PhaseInv p (step P c) := by
  obtain ⟨pc, sim, pr, eb, t⟩ := c
  cases pc
  case endEpStop =>
    simp only [PhaseInv] at h
    simp only [step, call]
    rcases h with h | h <;> split <;> simp [PhaseInv, phaseAfter_append, h, Phase.next]
  case beginStep =>
    simp only [PhaseInv] at h
    simp only [step, call]
    rcases h with ⟨h | h, h2⟩ <;> (repeat' split) <;> simp_all [PhaseInv, phaseAfter_append, Phase.next]
  case fin =>
    simp only [PhaseInv] at h
    simp only [step, call]
    rcases h with h | h | h <;> split <;> simp [PhaseInv, phaseAfter_append, h, Phase.next]
  all_goals
    simp only [PhaseInv] at h
    simp only [step, call]
    cases eb <;> (repeat' split) <;> simp_all [PhaseInv, phaseAfter_append, Phase.next]

theorem cmds_clock (cmds : List (Cmd K)) (s : Sim K) :
    (cmds.foldl Cmd.run s).time = s.time ∧ (cmds.foldl Cmd.run s).timeStepIdx = s.timeStepIdx ∧
    (cmds.foldl Cmd.run s).startTime = s.startTime := by
  induction cmds generalizing s with
  | nil => simp
  | cons c cs ih =>
    simp only [List.foldl_cons]
    obtain ⟨h1, h2, h3⟩ := ih (c.run s)
    rw [h1, h2, h3]
    cases c <;> simp [Cmd.run]

/-- Clock, step index and trace fit together. -/
def ClockInv (t0 : K) (i0 : ℤ) (c : Conf K σ) : Prop :=
  c.sim.time = t0 + (completedSteps c.trace).sum ∧ c.sim.timeStepIdx = i0 + (completedSteps c.trace).length

theorem clockInv_step [IsStrictOrderedRing K] (P : Problem K σ) (t0 : K) (i0 : ℤ) (c : Conf K σ)
    (h : ClockInv t0 i0 c) : ClockInv t0 i0 (step P c) := by
  obtain ⟨pc, sim, pr, eb, t⟩ := c
  obtain ⟨h1, h2⟩ := h
  simp only at h1 h2
  cases pc <;> simp only [step, call] <;> (repeat' split) <;>
    simp [ClockInv, completedSteps_append, completedSteps, h1, h2, cmds_clock, add_assoc]

theorem step_trace (P : Problem K σ) (c : Conf K σ) : ∃ u, (step P c).trace = c.trace ++ u := by
  obtain ⟨pc, sim, pr, eb, t⟩ := c
  cases pc <;> simp only [step, call] <;> (repeat' split) <;> simp

theorem run_trace_mono (P : Problem K σ) (c : Conf K σ) (n k : ℕ) :
    ∃ u, (run P (n + k) c).trace = (run P n c).trace ++ u := by
  induction k with
  | zero => exact ⟨[], by simp⟩
  | succ k ih =>
    obtain ⟨u, hu⟩ := ih
    obtain ⟨v, hv⟩ := step_trace P (run P (n + k) c)
    rw [← run_succ] at hv
    exact ⟨u ++ v, by rw [← Nat.add_assoc, hv, hu, List.append_assoc]⟩

/-- Every completed step ended with the events `integrated … d`, `endTimeStep`, `advanced d` and the integration
started at the time of the completed steps before it. -/
def StepsOk (t0 : K) (t : List (Event K)) : Prop :=
  ∀ l r d, t = l ++ Event.advanced d :: r →
    ∃ l' s, l = l' ++ [.integrated s d, .endTimeStep] ∧ s.time = t0 + (completedSteps l').sum

theorem stepsOk_append {t0 : K} {t : List (Event K)} {e : Event K} (h : StepsOk t0 t)
    (he : ∀ d, e = .advanced d → ∃ l' s, t = l' ++ [.integrated s d, .endTimeStep] ∧
      s.time = t0 + (completedSteps l').sum) : StepsOk t0 (t ++ [e]) := by
  intro l r d hl
  rcases List.eq_nil_or_concat r with hr | ⟨r', x, hr⟩
  · subst hr
    obtain ⟨h1, h2⟩ := List.append_inj' hl rfl
    subst h1
    exact he d (List.cons.inj h2).1
  · rw [hr, List.concat_eq_append, ← List.cons_append, ← List.append_assoc] at hl
    obtain ⟨h1, _⟩ := List.append_inj' hl rfl
    exact h _ _ _ h1

def SizeInv (t0 : K) (c : Conf K σ) : Prop :=
  StepsOk t0 c.trace ∧
  match c.pc with
  | .endStep => ∃ l s, c.trace = l ++ [.integrated s c.sim.dt] ∧ s.time = t0 + (completedSteps l).sum
  | .output | .advance =>
    ∃ l s, c.trace = l ++ [.integrated s c.sim.dt, .endTimeStep] ∧ s.time = t0 + (completedSteps l).sum
  | _ => True

theorem cmds_dt (cmds : List (Cmd K)) (s : Sim K) (h : ∀ d, Cmd.setTimeStepSize d ∉ cmds) :
    (cmds.foldl Cmd.run s).dt = s.dt := by
  induction cmds generalizing s with
  | nil => simp
  | cons c cs ih =>
    simp only [List.foldl_cons]
    rw [ih _ (fun d hd => h d (by simp [hd]))]
    cases c with
    | setTimeStepSize d => exact absurd (by simp) (h d)
    | _ => simp [Cmd.run]

theorem sizeInv_step (P : Problem K σ) (t0 : K)
    (he : ∀ p s r, P.endTimeStep p s = some r → ∀ d, Cmd.setTimeStepSize d ∉ r.2)
    (ho : ∀ p s r, P.writeOutput p s = some r → ∀ d, Cmd.setTimeStepSize d ∉ r.2)
    (c : Conf K σ) (hc : c.sim.time = t0 + (completedSteps c.trace).sum)
    (h : SizeInv t0 c) : SizeInv t0 (step P c) := by
  obtain ⟨pc, sim, pr, eb, t⟩ := c
  obtain ⟨h1, h2⟩ := h
  simp only at h1 h2 hc
  cases pc
  case endStep =>
    simp only [step, call]
    obtain ⟨l, s, hl, hs⟩ := h2
    split
    · exact ⟨stepsOk_append h1 (by simp), trivial⟩
    · rename_i p cmds heq
      refine ⟨stepsOk_append h1 (by simp), l, s, ?_, hs⟩
      simp only [cmds_dt _ _ (he _ _ _ heq)]
      simp [hl]
  case output =>
    simp only [step, call]
    obtain ⟨l, s, hl, hs⟩ := h2
    split
    · exact ⟨by simpa using h1, trivial⟩
    · rename_i p cmds heq
      refine ⟨by simpa using h1, l, s, ?_, hs⟩
      simp only [cmds_dt _ _ (ho _ _ _ heq)]
      simp [hl]
  case advance =>
    simp only [step, call]
    obtain ⟨l, s, hl, hs⟩ := h2
    split
    · exact ⟨by simpa using h1, trivial⟩
    · refine ⟨?_, ?_⟩
      · simp only [List.append_nil]
        refine stepsOk_append h1 ?_
        intro d hd
        cases hd
        exact ⟨l, s, hl, hs⟩
      · simp only
        split_ifs <;> trivial
  case integrate =>
    simp only [step]
    split
    · exact ⟨h1, trivial⟩
    · exact ⟨stepsOk_append h1 (by simp), t, sim, rfl, hc⟩
  all_goals
    simp only [step, call]
    (repeat' split) <;> first
      | exact ⟨h1, trivial⟩
      | exact ⟨by simpa using h1, trivial⟩
      | exact ⟨stepsOk_append h1 (by simp), trivial⟩

/-- A step integrated right after another one stays within the episode and the simulation. -/
def NoCross (t : List (Event K)) : Prop :=
  ∀ l r d s d', t = l ++ [Event.advanced d, .beginTimeStep, .integrated s d'] ++ r → 0 ≤ s.time →
    s.time + s.dt ≤ s.endTime ∧ s.startTime + (s.time + s.dt) ≤ s.episodeStart + s.episodeLength

/-- The time step size fits into the episode and the simulation unless the simulation is already over. -/
def Fits (s : Sim K) : Prop :=
  0 ≤ s.time → s.finished = false →
    s.time + s.dt ≤ s.endTime ∧ s.startTime + (s.time + s.dt) ≤ s.episodeStart + s.episodeLength

theorem noCross_append {t : List (Event K)} {e : Event K} (h : NoCross t)
    (he : ∀ s d', e = .integrated s d' → ∀ l d, t = l ++ [Event.advanced d, .beginTimeStep] → 0 ≤ s.time →
      s.time + s.dt ≤ s.endTime ∧ s.startTime + (s.time + s.dt) ≤ s.episodeStart + s.episodeLength) :
    NoCross (t ++ [e]) := by
  intro l r d s d' hl h0
  rcases List.eq_nil_or_concat r with hr | ⟨r', x, hr⟩
  · subst hr
    have hl' : t ++ [e] = (l ++ [Event.advanced d, .beginTimeStep]) ++ [.integrated s d'] := by
      rw [hl]; simp
    obtain ⟨h1, h2⟩ := List.append_inj' hl' rfl
    exact he s d' (List.cons.inj h2).1 l d h1 h0
  · rw [hr, List.concat_eq_append, ← List.append_assoc] at hl
    obtain ⟨h1, _⟩ := List.append_inj' hl rfl
    exact h _ _ _ _ _ h1 h0

theorem eps_pos [IsStrictOrderedRing K] : 0 < eps K := by unfold eps; positivity

theorem eps_lt_one [IsStrictOrderedRing K] : eps K < 1 := by
  unfold eps
  rw [div_lt_one (by positivity)]
  norm_num

theorem time_lt_end [IsStrictOrderedRing K] {s : Sim K} (h0 : 0 ≤ s.time) (h : s.finished = false) :
    s.time < s.endTime := by
  simp only [Sim.finished, Bool.or_eq_false_iff, decide_eq_false_iff_not, not_le] at h
  have : 0 ≤ max |s.time| s.dt * eps K :=
    mul_nonneg (le_trans (abs_nonneg _) (le_max_left _ _)) eps_pos.le
  nlinarith [h.2]

theorem time_lt_episodeEnd [IsStrictOrderedRing K] {s : Sim K} (h0 : 0 ≤ s.time) (h : s.episodeIsOver = false) :
    s.startTime + s.time < s.episodeStart + s.episodeLength := by
  simp only [Sim.episodeIsOver, decide_eq_false_iff_not, not_le] at h
  have h1 := eps_pos (K := K)
  have h2 := eps_lt_one (K := K)
  have h3 : 0 < s.episodeStart - s.startTime + s.episodeLength := by
    by_contra hc
    push Not at hc
    nlinarith
  nlinarith

theorem fits_min [IsStrictOrderedRing K] (s : Sim K) (x : K) (ho : s.episodeIsOver = false) :
    Fits { s with dt := min s.maxTimeStepSize x } := by
  intro h0 hf
  have ht : s.time < s.endTime := time_lt_end (s := { s with dt := min s.maxTimeStepSize x }) h0 hf
  have he := time_lt_episodeEnd h0 ho
  have hm : s.maxTimeStepSize ≤ s.endTime - s.time ∧
      s.maxTimeStepSize ≤ (s.episodeStart + s.episodeLength) - (s.time + s.startTime) := by
    unfold Sim.maxTimeStepSize Sim.episodeMaxTimeStepSize
    rw [ho]
    split
    · constructor <;> linarith
    · simp only [Bool.false_eq_true, if_false]
      constructor
      · exact le_trans (min_le_right _ _) (max_le (by linarith) le_rfl)
      · exact le_trans (min_le_left _ _) (max_le (by linarith) le_rfl)
  have hx := min_le_left s.maxTimeStepSize x
  constructor <;> simp only <;> linarith [hm.1, hm.2]

def EndsAdvanced (t : List (Event K)) : Prop := ∃ l d, t = l ++ [Event.advanced d]
def EndsBegun (t : List (Event K)) : Prop := ∃ l d, t = l ++ [Event.advanced d, .beginTimeStep]

def CrossInv (c : Conf K σ) : Prop :=
  NoCross c.trace ∧
  match c.pc with
  | .head | .restart | .beginStep => EndsAdvanced c.trace → Fits c.sim
  | .integrate => c.sim.finished = false ∧ (EndsBegun c.trace → Fits c.sim)
  | .select => c.sim.episodeIsOver = false
  | _ => True

theorem not_endsAdvanced (t : List (Event K)) (e : Event K) (he : ∀ d, e ≠ .advanced d) :
    ¬ EndsAdvanced (t ++ [e]) := by
  rintro ⟨l, d, h⟩
  obtain ⟨_, h2⟩ := List.append_inj' h rfl
  exact he d (List.cons.inj h2).1

theorem crossInv_step [IsStrictOrderedRing K] (P : Problem K σ) (hf : P.forcedTimeSteps = [])
    (hb : Quiet P.beginTimeStep) (hr : Quiet P.writeRestart) (c : Conf K σ) (hi : 0 ≤ c.sim.timeStepIdx)
    (h : CrossInv c) : CrossInv (step P c) := by
  obtain ⟨pc, sim, pr, eb, t⟩ := c
  obtain ⟨h1, h2⟩ := h
  simp only at h1 h2 hi
  cases pc
  case head =>
    simp only [step]
    (repeat' split) <;> simp_all [CrossInv]
  case restart =>
    simp only [step, call]
    split
    · exact ⟨by simpa using h1, trivial⟩
    · rename_i p cmds heq
      have := hr _ _ _ heq
      simp only at this
      subst this
      exact ⟨by simpa using h1, by simpa using h2⟩
  case beginStep =>
    simp only [step, call]
    split
    · exact ⟨noCross_append h1 (by simp), trivial⟩
    · rename_i p cmds heq
      have := hb _ _ _ heq
      simp only at this
      subst this
      split
      · exact ⟨noCross_append h1 (by simp), trivial⟩
      · rename_i hfin
        refine ⟨noCross_append h1 (by simp), by simpa using hfin, ?_⟩
        rintro ⟨l, d, hl⟩
        simp only [List.foldl_nil]
        apply h2
        have hl' : t ++ [Event.beginTimeStep] = (l ++ [Event.advanced d]) ++ [Event.beginTimeStep] := by
          simpa using hl
        exact ⟨l, d, (List.append_inj' hl' rfl).1⟩
  case integrate =>
    simp only [step]
    split
    · exact ⟨h1, trivial⟩
    · refine ⟨noCross_append h1 ?_, trivial⟩
      intro s d' he l d hl h0
      cases he
      exact h2.2 ⟨l, d, hl⟩ h0 h2.1
  case select =>
    simp only [step, hf]
    refine ⟨h1, fun _ => ?_⟩
    simp only [List.length_nil, Nat.cast_zero, not_lt.mpr hi, if_false]
    exact fits_min _ _ h2
  case advance =>
    simp only [step, call]
    split
    · exact ⟨by simpa using h1, trivial⟩
    · refine ⟨by simpa using noCross_append h1 (by simp), ?_⟩
      simp only
      split_ifs with hov
      · trivial
      · simpa using hov
  case endEp =>
    simp only [step, call]
    split
    · exact ⟨noCross_append h1 (by simp), trivial⟩
    · exact ⟨noCross_append h1 (by simp), fun h => absurd h (not_endsAdvanced _ _ (by simp))⟩
  case beginEp =>
    simp only [step, call]
    (repeat' split)
    · exact ⟨noCross_append h1 (by simp), trivial⟩
    · exact ⟨noCross_append h1 (by simp), trivial⟩
    · exact ⟨noCross_append h1 (by simp), fun h => absurd h (not_endsAdvanced _ _ (by simp))⟩
  all_goals
    simp only [step, call]
    (repeat' split) <;> first
      | exact ⟨h1, trivial⟩
      | exact ⟨by simpa using h1, trivial⟩
      | exact ⟨noCross_append h1 (by simp), trivial⟩

end Verif.TimeLoop
