import Verif.StepSize.Model
import Verif.TimeLoop.Props
import Verif.TimeInt.Props
import Verif.Newton.Props

/-
C151: the sizes of time steps which problems choose by default.
-/

set_option autoImplicit false
set_option linter.unusedSectionVars false

namespace Verif.StepSize

open Verif.TimeLoop

variable {K : Type} [Field K] [LinearOrder K] [IsStrictOrderedRing K] {σ S : Type}

/-- Specification: what is left of the episode or of the simulation, whichever ends first. -/
def rest (s : Sim K) : K := min (s.endTime - s.time) (s.episodeStart + s.episodeLength - (s.startTime + s.time))

theorem maxTimeStepSize_eq (s : Sim K) (h0 : 0 ≤ s.time) (hf : s.finished = false) (ho : s.episodeIsOver = false) :
    s.maxTimeStepSize = rest s ∧ 0 < rest s := by
  have ht := time_lt_end h0 hf
  have he := time_lt_episodeEnd h0 ho
  constructor
  · unfold Sim.maxTimeStepSize Sim.episodeMaxTimeStepSize rest
    rw [hf, ho]
    simp only [Bool.false_eq_true, if_false]
    rw [max_eq_right (by linarith), max_eq_right (by linarith), min_comm, add_comm s.time]
  · exact lt_min (by linarith) (by linarith)

theorem suggestion_pos (i : Input K) (d : K) (h : 0 < i.minSize) : 0 < Newton.suggestTimeStepSize i.minSize i.target i.iterations d :=
  h.trans_le (Newton.C14_at_least_minimum _ _ _ _)

/-- **C151** The step which is chosen when `R` is left either uses up `R`, or leaves at least 98 percent of its own size: there is no
tiny step at the end of an episode. -/
theorem C151_no_tiny_rest (i : Input K) (s : Sim K) (hi : i.imposed ≤ 0) (hmax : 0 < i.maxSize) (hmin : 0 < i.minSize)
    (h0 : 0 ≤ s.time) (hf : s.finished = false) (ho : s.episodeIsOver = false) :
    let d := min s.maxTimeStepSize (nextTimeStepSize i s)
    0 < d ∧ (d = rest s ∨ 98 / 100 * d ≤ rest s - d) := by
  obtain ⟨h1, h2⟩ := maxTimeStepSize_eq s h0 hf ho
  simp only [nextTimeStepSize, if_neg (not_lt.2 hi), h1]
  have hp : 0 < min i.maxSize (Newton.suggestTimeStepSize i.minSize i.target i.iterations s.dt) :=
    lt_min hmax (suggestion_pos i _ hmin)
  generalize min i.maxSize (Newton.suggestTimeStepSize i.minSize i.target i.iterations s.dt) = x at hp ⊢
  split_ifs with hc
  · rw [min_eq_right (by linarith)]
    exact ⟨by linarith, Or.inr (by linarith)⟩
  · by_cases hx : x < rest s
    · have : x * 2 ≤ rest s := not_lt.1 fun h => hc ⟨hx, h⟩
      rw [min_eq_right hx.le]
      exact ⟨hp, Or.inr (by linarith)⟩
    · rw [min_eq_left (not_lt.1 hx)]
      exact ⟨h2, Or.inl rfl⟩

/-- **C151** The step which is chosen is not larger than `MaxTimeStepSize`, unless less than twice this size is left; it is never
larger by more than one percent. -/
theorem C151_maximum_partial (i : Input K) (s : Sim K) (hi : i.imposed ≤ 0) (hmax : 0 < i.maxSize) :
    let d := min s.maxTimeStepSize (nextTimeStepSize i s)
    d ≤ i.maxSize * (101 / 100) ∧ (2 * i.maxSize ≤ s.maxTimeStepSize → d ≤ i.maxSize) := by
  simp only [nextTimeStepSize, if_neg (not_lt.2 hi)]
  have hx : min i.maxSize (Newton.suggestTimeStepSize i.minSize i.target i.iterations s.dt) ≤ i.maxSize := min_le_left _ _
  generalize min i.maxSize (Newton.suggestTimeStepSize i.minSize i.target i.iterations s.dt) = x at hx ⊢
  split_ifs with hc
  · refine ⟨(min_le_right _ _).trans (by linarith), fun h => by linarith⟩
  · exact ⟨(min_le_right _ _).trans (by linarith), fun _ => (min_le_right _ _).trans hx⟩

/-- **C151, violated** If a little less than twice `MaxTimeStepSize` is left, the step which is chosen is larger than `MaxTimeStepSize`. -/
theorem C151_maximum_violated : ∃ (i : Input ℚ) (s : Sim ℚ), i.imposed = 0 ∧ 0 < i.minSize ∧ i.minSize < i.maxSize ∧
    s.finished = false ∧ s.episodeIsOver = false ∧ i.maxSize < min s.maxTimeStepSize (nextTimeStepSize i s) :=
  ⟨⟨0, 100, 1, 10, 10⟩, ⟨0, 1000, 1199, 100, 10, 0, 0, 2000, false⟩, by decide +kernel, by decide +kernel, by decide +kernel,
    by decide +kernel, by decide +kernel, by decide +kernel⟩

/-- **C151** The step which is chosen is at least half as large as `MinTimeStepSize`, or uses up what is left; it is at least as large
as `MinTimeStepSize` if twice the suggestion of the Newton method is left. -/
theorem C151_minimum_partial (i : Input K) (s : Sim K) (hi : i.imposed ≤ 0) (hm : i.minSize ≤ i.maxSize) (hmin : 0 < i.minSize) :
    let d := min s.maxTimeStepSize (nextTimeStepSize i s)
    (i.minSize / 2 ≤ d ∨ d = s.maxTimeStepSize) ∧ (2 * i.maxSize ≤ s.maxTimeStepSize → i.minSize ≤ d) := by
  simp only [nextTimeStepSize, if_neg (not_lt.2 hi)]
  have hx : i.minSize ≤ min i.maxSize (Newton.suggestTimeStepSize i.minSize i.target i.iterations s.dt) :=
    le_min hm (Newton.C14_at_least_minimum _ _ _ _)
  have hy : min i.maxSize (Newton.suggestTimeStepSize i.minSize i.target i.iterations s.dt) ≤ i.maxSize := min_le_left _ _
  generalize min i.maxSize (Newton.suggestTimeStepSize i.minSize i.target i.iterations s.dt) = x at hx hy ⊢
  split_ifs with hc
  · rw [min_eq_right (by linarith [hc.1])]
    exact ⟨Or.inl (by linarith [hc.1]), fun h => absurd hc.2 (not_lt.2 (by linarith))⟩
  · rcases le_total s.maxTimeStepSize x with h | h
    · rw [min_eq_left h]
      exact ⟨Or.inr rfl, fun h' => by linarith⟩
    · rw [min_eq_right h]
      exact ⟨Or.inl (by linarith), fun _ => hx⟩

/-- **C151, violated** Although more than `MinTimeStepSize` is left, a step of less than `MinTimeStepSize` may be chosen. -/
theorem C151_minimum_violated : ∃ (i : Input ℚ) (s : Sim ℚ), i.imposed = 0 ∧ 0 < i.minSize ∧ i.minSize < i.maxSize ∧
    s.finished = false ∧ s.episodeIsOver = false ∧ i.minSize < s.maxTimeStepSize ∧
    min s.maxTimeStepSize (nextTimeStepSize i s) < i.minSize :=
  ⟨⟨0, 100, 10, 10, 20⟩, ⟨0, 1000, 1011, 10, 10, 0, 0, 2000, false⟩, by decide +kernel, by decide +kernel, by decide +kernel,
    by decide +kernel, by decide +kernel, by decide +kernel, by decide +kernel⟩

/-! ### Whole runs -/

/-- The integration of a time step does not make it larger. -/
theorem attempts_le (minDt : K) (hmin : 0 ≤ minDt) (cont : Bool) (solver : TimeInt.Solver K S) (n j : ℕ) (st : TimeInt.St K S)
    (h0 : 0 ≤ st.dt) : (TimeInt.attempts minDt cont solver n j st).st.dt ≤ st.dt ∧
      0 ≤ (TimeInt.attempts minDt cont solver n j st).st.dt := by
  induction n generalizing j st with
  | zero => exact ⟨le_rfl, h0⟩
  | succ n ih =>
    rw [TimeInt.attempts, TimeInt.update]
    cases solver j st.dt st.sol0 st.sol1 with
    | thrown it => exact ⟨le_rfl, h0⟩
    | returned it b =>
      cases b with
      | true => exact ⟨le_rfl, h0⟩
      | false =>
        simp only
        split_ifs with h1 h2 h3
        · exact ⟨le_rfl, h0⟩
        · exact ⟨le_rfl, h0⟩
        · obtain ⟨k1, k2⟩ := ih (j + 1) { sol0 := st.sol1, sol1 := st.sol1, dt := minDt } hmin
          refine ⟨k1.trans ?_, k2⟩
          have : 0 ≤ minDt * TimeInt.relTol K := mul_nonneg hmin (by unfold TimeInt.relTol; positivity)
          rw [mul_add, mul_one] at h1
          simp only
          linarith [not_lt.1 h1]
        · obtain ⟨k1, k2⟩ := ih (j + 1) { sol0 := st.sol1, sol1 := st.sol1, dt := st.dt / 2 } (by simp only; linarith)
          refine ⟨k1.trans ?_, k2⟩
          simp only
          linarith

/-- No callback sets the size of time steps. -/
def LeavesSize (P : Problem K σ) : Prop :=
  ∀ cb ∈ [P.beginEpisode, P.endEpisode, P.beginTimeStep, P.endTimeStep, P.writeOutput, P.advanceTimeLevel,
    P.writeRestart, P.finalize], ∀ p s r, cb p s = some r → ∀ d, Cmd.setTimeStepSize d ∉ r.2

theorem run_dt (l : List (Cmd K)) (s : Sim K) (h : ∀ d, Cmd.setTimeStepSize d ∉ l) : (l.foldl Cmd.run s).dt = s.dt := by
  induction l generalizing s with
  | nil => rfl
  | cons a l ih =>
    rw [List.foldl_cons, ih _ fun d hd => h d (List.mem_cons_of_mem _ hd)]
    cases a with
    | setTimeStepSize d => exact absurd (List.mem_cons_self ..) (h d)
    | _ => rfl

theorem mem_completedSteps {d : K} {t : List (Event K)} : d ∈ completedSteps t ↔ Event.advanced d ∈ t := by
  induction t with
  | nil => simp [completedSteps]
  | cons e t ih => cases e <;> simp [completedSteps, ih]

/-- The sizes so far are between zero and `B`. -/
def Bounded (B : K) (c : Conf K σ) : Prop := (0 ≤ c.sim.dt ∧ c.sim.dt ≤ B) ∧ ∀ d, Event.advanced d ∈ c.trace → 0 ≤ d ∧ d ≤ B

theorem bounded_call {B : K} {cb : Callback K σ} {c : Conf K σ} {ev : List (Event K)} {k : Conf K σ → Conf K σ} (hc : Bounded B c)
    (hcb : ∀ p s r, cb p s = some r → ∀ d, Cmd.setTimeStepSize d ∉ r.2) (hev : ∀ d, Event.advanced d ∉ ev)
    (hk : ∀ c', Bounded B c' → Bounded B (k c')) : Bounded B (call cb c ev k) := by
  have ht : ∀ d, Event.advanced d ∈ c.trace ++ ev → 0 ≤ d ∧ d ≤ B := by
    intro d hd
    rcases List.mem_append.1 hd with hd | hd
    · exact hc.2 d hd
    · exact absurd hd (hev d)
  unfold call
  split
  · exact ⟨hc.1, ht⟩
  · rename_i p cmds heq
    apply hk
    refine ⟨?_, ht⟩
    simp only
    rw [run_dt cmds c.sim (hcb _ _ _ heq)]
    exact hc.1

theorem bounded_step {P : Problem K σ} {input : σ → Input K} {maxFails : ℕ} {cont : Bool} {solver : σ → TimeInt.Solver K S}
    {before after : σ → S} (h : Defaults P input maxFails cont solver before after) (hf : P.forcedTimeSteps = [])
    (hl : LeavesSize P) {M B : K} (hM : 0 < M) (hB : M * (101 / 100) ≤ B)
    (hin : ∀ p, (input p).imposed ≤ 0 ∧ 0 < (input p).minSize ∧ 0 < (input p).maxSize ∧ (input p).maxSize ≤ M)
    (c : Conf K σ) (hc : Bounded B c) : Bounded B (step P c) := by
  have hl' := fun cb hcb => hl cb hcb
  simp only [List.mem_cons, List.not_mem_nil, or_false, forall_eq_or_imp, forall_eq] at hl'
  obtain ⟨l1, l2, l3, l4, l5, l6, l7, l8⟩ := hl'
  obtain ⟨pc, sim, pr, eb, t⟩ := c
  cases pc
  case head =>
    simp only [step]
    (repeat' split) <;> exact hc
  case beginEp =>
    refine bounded_call hc l1 (by simp) fun c' h' => ?_
    split <;> exact h'
  case beginStep =>
    refine bounded_call hc l3 (by simp) fun c' h' => ?_
    split <;> exact h'
  case endStepStop => exact bounded_call hc l4 (by simp) fun c' h' => h'
  case endEpStop => exact bounded_call hc l2 (by simp) fun c' h' => h'
  case integrate =>
    simp only [step]
    split
    · exact hc
    · rename_i p d heq
      obtain ⟨-, hd⟩ := h.integration _ _ _ _ heq
      obtain ⟨k1, k2⟩ := attempts_le (input pr).minSize (hin pr).2.1.le cont (solver pr) maxFails 0 ⟨after pr, before pr, sim.dt⟩ hc.1.1
      rw [TimeInt.timeIntegration] at hd
      refine ⟨⟨by simp only [hd]; exact k2, by simp only [hd]; exact k1.trans hc.1.2⟩, ?_⟩
      intro e he
      apply hc.2 e
      simpa using he
  case endStep => exact bounded_call hc l4 (by simp) fun c' h' => h'
  case output => exact bounded_call hc l5 (by simp) fun c' h' => h'
  case advance =>
    refine bounded_call hc l6 (by simp) fun c' h' => ?_
    refine ⟨h'.1, ?_⟩
    intro e he
    rcases List.mem_append.1 he with he | he
    · exact h'.2 e he
    · cases List.mem_singleton.1 he
      exact hc.1
  case endEp => exact bounded_call hc l2 (by simp) fun c' h' => h'
  case select =>
    refine ⟨?_, hc.2⟩
    simp only [step, hf, List.length_nil, Nat.cast_zero]
    split_ifs with hneg
    · have : (List.getD ([] : List K) sim.timeStepIdx.toNat 0) = 0 := by simp
      rw [this]
      exact ⟨le_rfl, by linarith⟩
    · rw [h.next]
      obtain ⟨i1, i2, i3, i4⟩ := hin pr
      obtain ⟨m1, -⟩ := C151_maximum_partial (input pr) sim i1 i3
      refine ⟨?_, m1.trans (by linarith)⟩
      apply le_min
      · unfold Sim.maxTimeStepSize Sim.episodeMaxTimeStepSize
        split_ifs
        · exact le_rfl
        · exact le_min le_rfl (le_max_left _ _)
        · exact le_min (le_max_left _ _) (le_max_left _ _)
      · rw [nextTimeStepSize, if_neg (not_lt.2 i1)]
        have hp : 0 < min (input pr).maxSize (Newton.suggestTimeStepSize (input pr).minSize (input pr).target (input pr).iterations sim.dt) :=
          lt_min i3 (suggestion_pos _ _ i2)
        simp only
        split_ifs with hc'
        · have := hp.trans hc'.1
          positivity
        · exact hp.le
  case restart => exact bounded_call hc l7 (by simp) fun c' h' => h'
  case fin => exact bounded_call hc l8 (by simp) fun c' h' => h'
  case done => exact hc
  case aborted => exact hc
  case thrown => exact hc

/-- **C151** In a whole run with the default choice of time steps, with any number of failures of the Newton method: no step which is
completed is larger than the step at the beginning or than 1.01 times `MaxTimeStepSize`, whichever is larger. What is missing:
nothing keeps the step at the beginning below `MaxTimeStepSize`, and the one percent. -/
theorem C151_run_partial {P : Problem K σ} {input : σ → Input K} {maxFails : ℕ} {cont : Bool} {solver : σ → TimeInt.Solver K S}
    {before after : σ → S} (h : Defaults P input maxFails cont solver before after) (hf : P.forcedTimeSteps = [])
    (hl : LeavesSize P) {M : K}
    (hin : ∀ p, (input p).imposed ≤ 0 ∧ 0 < (input p).minSize ∧ 0 < (input p).maxSize ∧ (input p).maxSize ≤ M)
    (sim : Sim K) (hd : 0 ≤ sim.dt) (p : σ) (n : ℕ) :
    ∀ d ∈ completedSteps (run P n (start sim p)).trace, 0 ≤ d ∧ d ≤ max sim.dt (M * (101 / 100)) := by
  have hM : 0 < M := (hin p).2.2.1.trans_le (hin p).2.2.2
  have := run_inv (P := P) (c := start sim p) (Bounded (max sim.dt (M * (101 / 100))))
    (fun c hc => bounded_step h hf hl hM (le_max_right _ _) hin c hc)
    ⟨⟨hd, le_max_left _ _⟩, by simp [start]⟩ n
  intro d hd
  exact this.2 d (mem_completedSteps.1 hd)

/-! ### The beginning of steps -/

/-- `Q` holds for the clock at the beginning of each step which follows another one within an episode. -/
def BegunInv (Q : Sim K → Prop) (c : Conf K σ) : Prop :=
  (∀ l r d s d', c.trace = l ++ [.advanced d, .beginTimeStep, .integrated s d'] ++ r → s.finished = false ∧ Q s) ∧
  match c.pc with
  | .head | .restart | .beginStep => EndsAdvanced c.trace → Q c.sim
  | .integrate => c.sim.finished = false ∧ (EndsBegun c.trace → Q c.sim)
  | .select => c.sim.episodeIsOver = false
  | _ => True

theorem begun_append {Q : Sim K → Prop} {t : List (Event K)} {e : Event K}
    (h : ∀ l r d s d', t = l ++ [.advanced d, .beginTimeStep, .integrated s d'] ++ r → s.finished = false ∧ Q s)
    (he : ∀ s d', e = .integrated s d' → ∀ l d, t = l ++ [Event.advanced d, .beginTimeStep] → s.finished = false ∧ Q s) :
    ∀ l r d s d', t ++ [e] = l ++ [.advanced d, .beginTimeStep, .integrated s d'] ++ r → s.finished = false ∧ Q s := by
  intro l r d s d' hl
  rcases List.eq_nil_or_concat r with hr | ⟨r', x, hr⟩
  · subst hr
    have hl' : t ++ [e] = (l ++ [Event.advanced d, .beginTimeStep]) ++ [.integrated s d'] := by
      rw [hl]; simp
    obtain ⟨h1, h2⟩ := List.append_inj' hl' rfl
    exact he s d' (List.cons.inj h2).1 l d h1
  · rw [hr, List.concat_eq_append, ← List.append_assoc] at hl
    obtain ⟨h1, _⟩ := List.append_inj' hl rfl
    exact h _ _ _ _ _ h1

theorem begun_step {P : Problem K σ} {Q : Sim K → Prop} (hf : P.forcedTimeSteps = []) (hb : Quiet P.beginTimeStep)
    (hr : Quiet P.writeRestart)
    (hs : ∀ (p : σ) (s : Sim K), s.episodeIsOver = false → Q { s with dt := min s.maxTimeStepSize (P.nextTimeStepSize p s) })
    (c : Conf K σ) (hi : 0 ≤ c.sim.timeStepIdx) (h : BegunInv Q c) : BegunInv Q (step P c) := by
  obtain ⟨pc, sim, pr, eb, t⟩ := c
  obtain ⟨h1, h2⟩ := h
  simp only at h1 h2 hi
  cases pc
  case head =>
    simp only [step]
    split
    · exact ⟨h1, trivial⟩
    · split
      · exact ⟨h1, trivial⟩
      · exact ⟨h1, h2⟩
  case restart =>
    simp only [step, call]
    split
    · exact ⟨by simpa using h1, trivial⟩
    · rename_i p cmds heq
      have := hr _ _ _ heq
      simp only at this
      subst this
      exact ⟨by simpa using h1, by simpa using h2⟩
  case beginStep =>
    simp only [step, call]
    split
    · exact ⟨begun_append h1 (by simp), trivial⟩
    · rename_i p cmds heq
      have := hb _ _ _ heq
      simp only at this
      subst this
      split
      · exact ⟨begun_append h1 (by simp), trivial⟩
      · rename_i hfin
        refine ⟨begun_append h1 (by simp), by simpa using hfin, ?_⟩
        rintro ⟨l, d, hl⟩
        simp only [List.foldl_nil]
        apply h2
        have hl' : t ++ [Event.beginTimeStep] = (l ++ [Event.advanced d]) ++ [Event.beginTimeStep] := by
          simpa using hl
        exact ⟨l, d, (List.append_inj' hl' rfl).1⟩
  case integrate =>
    simp only [step]
    split
    · exact ⟨h1, trivial⟩
    · refine ⟨begun_append h1 ?_, trivial⟩
      intro s d' he l d hl
      cases he
      exact ⟨h2.1, h2.2 ⟨l, d, hl⟩⟩
  case select =>
    simp only [step, hf]
    refine ⟨h1, fun _ => ?_⟩
    simp only [List.length_nil, Nat.cast_zero, not_lt.mpr hi, if_false]
    exact hs _ _ h2
  case advance =>
    simp only [step, call]
    split
    · exact ⟨by simpa using h1, trivial⟩
    · refine ⟨by simpa using begun_append h1 (by simp), ?_⟩
      simp only
      split_ifs with hov
      · trivial
      · simpa using hov
  case endEp =>
    simp only [step, call]
    split
    · exact ⟨begun_append h1 (by simp), trivial⟩
    · exact ⟨begun_append h1 (by simp), fun h => absurd h (not_endsAdvanced _ _ (by simp))⟩
  case beginEp =>
    simp only [step, call]
    (repeat' split)
    · exact ⟨begun_append h1 (by simp), trivial⟩
    · exact ⟨begun_append h1 (by simp), trivial⟩
    · exact ⟨begun_append h1 (by simp), fun h => absurd h (not_endsAdvanced _ _ (by simp))⟩
  case endStepStop =>
    simp only [step, call]
    split <;> exact ⟨begun_append h1 (by simp), trivial⟩
  case endEpStop =>
    simp only [step, call]
    split <;> exact ⟨begun_append h1 (by simp), trivial⟩
  case endStep =>
    simp only [step, call]
    split <;> exact ⟨begun_append h1 (by simp), trivial⟩
  case output =>
    simp only [step, call]
    split <;> exact ⟨by simpa using h1, trivial⟩
  case fin =>
    simp only [step, call]
    split <;> exact ⟨begun_append h1 (by simp), trivial⟩
  case done => exact ⟨h1, trivial⟩
  case aborted => exact ⟨h1, trivial⟩
  case thrown => exact ⟨h1, trivial⟩

/-- **C151** In a whole run with the default choice of time steps: each step which follows another one in the same episode is begun
with a size which either uses up what is left of the episode or of the simulation, or leaves at least 98 percent of its own size. -/
theorem C151_run_no_tiny_rest {P : Problem K σ} {input : σ → Input K} {maxFails : ℕ} {cont : Bool}
    {solver : σ → TimeInt.Solver K S} {before after : σ → S} (h : Defaults P input maxFails cont solver before after)
    (hf : P.forcedTimeSteps = []) (hb : Quiet P.beginTimeStep) (hr : Quiet P.writeRestart)
    (hin : ∀ p, (input p).imposed ≤ 0 ∧ 0 < (input p).minSize ∧ 0 < (input p).maxSize)
    (sim : Sim K) (hi : 0 ≤ sim.timeStepIdx) (p : σ) (n : ℕ) (l r : List (Event K)) (d d' : K) (s : Sim K)
    (ht : (run P n (start sim p)).trace = l ++ [.advanced d, .beginTimeStep, .integrated s d'] ++ r) (h0 : 0 ≤ s.time) :
    s.dt = rest s ∨ 98 / 100 * s.dt ≤ rest s - s.dt := by
  have := run_inv (P := P) (c := start sim p)
    (fun c => ClockInv sim.time sim.timeStepIdx c ∧
      BegunInv (fun s => 0 ≤ s.time → s.finished = false → s.dt = rest s ∨ 98 / 100 * s.dt ≤ rest s - s.dt) c)
    (fun c hc => ⟨clockInv_step P _ _ c hc.1, begun_step hf hb hr ?_ c (by rw [hc.1.2]; positivity) hc.2⟩)
    ⟨by simp [ClockInv, start, completedSteps], by
      refine ⟨?_, ?_⟩
      · intro l r d s d' h
        simp [start] at h
      · rintro ⟨l, d, h⟩
        simp [start] at h⟩ n
  · obtain ⟨hfin, hq⟩ := this.2.1 l r d s d' ht
    exact hq h0 hfin
  · intro q s' ho h0' hfin'
    rw [h.next]
    show min s'.maxTimeStepSize (nextTimeStepSize (input q) s') = rest s' ∨
      98 / 100 * min s'.maxTimeStepSize (nextTimeStepSize (input q) s') ≤ rest s' - min s'.maxTimeStepSize (nextTimeStepSize (input q) s')
    by_cases hfs : s'.finished = true
    · have hz : min s'.maxTimeStepSize (nextTimeStepSize (input q) s') ≤ 0 := by
        refine (min_le_left _ _).trans ?_
        rw [Sim.maxTimeStepSize, if_pos hfs]
      have hr' : 0 < rest s' := by
        have h1 := time_lt_end (s := { s' with dt := min s'.maxTimeStepSize (P.nextTimeStepSize q s') }) h0' hfin'
        have h2 := time_lt_episodeEnd h0' ho
        exact lt_min (by simp only at h1; linarith) (by linarith)
      exact Or.inr (by linarith)
    · exact (C151_no_tiny_rest (input q) s' (hin q).1 (hin q).2.2 (hin q).2.1 h0' (by simpa using hfs) ho).2

/-- **C151** (partial) If the size `D` has been imposed, each step which follows another one in the same episode is begun with this size;
only the end of the episode or of the simulation makes it smaller (`old` is the size of the time step before it, which
`maxTimeStepSize` uses for the accuracy of the clock).  Missing: the first step of an episode, see `C151_imposed_violated`. -/
theorem C151_imposed_partial {P : Problem K σ} {input : σ → Input K} {maxFails : ℕ} {cont : Bool}
    {solver : σ → TimeInt.Solver K S} {before after : σ → S} (h : Defaults P input maxFails cont solver before after)
    (hf : P.forcedTimeSteps = []) (hb : Quiet P.beginTimeStep) (hr : Quiet P.writeRestart) (D : K) (hD : 0 < D)
    (hin : ∀ p, (input p).imposed = D)
    (sim : Sim K) (hi : 0 ≤ sim.timeStepIdx) (p : σ) (n : ℕ) (l r : List (Event K)) (d d' : K) (s : Sim K)
    (ht : (run P n (start sim p)).trace = l ++ [.advanced d, .beginTimeStep, .integrated s d'] ++ r) :
    ∃ old, s.dt = min (Sim.maxTimeStepSize { s with dt := old }) D := by
  have := run_inv (P := P) (c := start sim p)
    (fun c => ClockInv sim.time sim.timeStepIdx c ∧
      BegunInv (fun s => ∃ old, s.dt = min (Sim.maxTimeStepSize { s with dt := old }) D) c)
    (fun c hc => ⟨clockInv_step P _ _ c hc.1, begun_step hf hb hr ?_ c (by rw [hc.1.2]; positivity) hc.2⟩)
    ⟨by simp [ClockInv, start, completedSteps], by
      refine ⟨?_, ?_⟩
      · intro l r d s d' h
        simp [start] at h
      · rintro ⟨l, d, h⟩
        simp [start] at h⟩ n
  · exact (this.2.1 l r d s d' ht).2
  · intro q s' _
    refine ⟨s'.dt, ?_⟩
    rw [h.next, nextTimeStepSize, if_pos (by rw [hin]; exact hD), hin]

/-! ### An example: a simulation of 100 time units in episodes of 25, steps of at most 9, and a Newton method which takes its target
number of iterations and fails for steps of more than 8 -/

def demoInput : Input ℚ := ⟨0, 9, 1, 10, 10⟩

def demoSolver : TimeInt.Solver ℚ Unit := fun _ dt _ _ => .returned () (decide (dt ≤ 8))

def demo : Problem ℚ Unit where
  beginEpisode _ s := some ((), [.startNextEpisode 25, .setEndTime s.endTime])
  endEpisode _ _ := some ((), [])
  beginTimeStep _ _ := some ((), [])
  endTimeStep _ _ := some ((), [])
  writeOutput _ _ := some ((), [])
  advanceTimeLevel _ _ := some ((), [])
  writeRestart _ _ := some ((), [])
  finalize _ _ := some ((), [])
  timeIntegration _ s :=
    let r := TimeInt.timeIntegration 10 1 false demoSolver ⟨(), (), s.dt⟩
    if r.outcome = .converged ∨ r.outcome = .accepted then some ((), r.st.dt) else none
  nextTimeStepSize _ s := nextTimeStepSize demoInput s
  forcedTimeSteps := []

theorem demo_defaults : Defaults demo (fun _ => demoInput) 10 false (fun _ => demoSolver) (fun _ => ()) fun _ => () where
  next _ _ := rfl
  integration := by
    intro p s q d hd
    simp only [demo] at hd
    split_ifs at hd with hc
    simp only [Option.some.injEq, Prod.mk.injEq] at hd
    exact ⟨hc, hd.2.symm⟩

theorem demo_leaves : LeavesSize demo := by
  intro cb hcb p s r hr d
  simp only [demo, List.mem_cons, List.not_mem_nil, or_false] at hcb
  rcases hcb with rfl | rfl | rfl | rfl | rfl | rfl | rfl | rfl <;> cases hr <;> simp

example (n : ℕ) (d : ℚ) (hd : d ∈ completedSteps (run demo n (start ⟨0, 0, 100, 12, 0, 0, 0, 25, false⟩ ())).trace) :
    0 ≤ d ∧ d ≤ 12 := by
  have := C151_run_partial demo_defaults rfl demo_leaves (M := 9) (fun _ => by decide +kernel) _ (by decide +kernel) () n d hd
  refine ⟨this.1, this.2.trans (by norm_num)⟩

example (n : ℕ) (l r : List (Event ℚ)) (d d' : ℚ) (s : Sim ℚ) (h0 : 0 ≤ s.time)
    (ht : (run demo n (start ⟨0, 0, 100, 12, 0, 0, 0, 25, false⟩ ())).trace =
      l ++ [.advanced d, .beginTimeStep, .integrated s d'] ++ r) : s.dt = rest s ∨ 98 / 100 * s.dt ≤ rest s - s.dt :=
  C151_run_no_tiny_rest demo_defaults rfl (by intro p s r h; cases h; rfl) (by intro p s r h; cases h; rfl)
    (fun _ => by decide +kernel) _ (by decide) () n l r d d' s ht h0

/-- The run does take steps: the first one is halved once, the next ones are as large as what is left permits. -/
example : (completedSteps (run demo 40 (start ⟨0, 0, 100, 12, 0, 0, 0, 25, false⟩ ())).trace).take 2 = [6, 6] := by decide +kernel

/-! ### Imposed sizes -/

/-- Steps of size ten are imposed; episodes have length 25. -/
def ten : Problem ℚ Unit := { demo with
  beginEpisode := fun _ _ => some ((), [])
  endEpisode := fun _ _ => some ((), [.startNextEpisode 25])
  timeIntegration := fun _ s => some ((), s.dt)
  nextTimeStepSize := fun _ s => nextTimeStepSize ⟨10, 100, 1, 10, 10⟩ s }

theorem ten_defaults : Defaults ten (fun _ => ⟨10, 100, 1, 10, 10⟩) 1 false (fun _ _ _ _ _ => .returned () true) (fun _ => ()) fun _ => () where
  next _ _ := rfl
  integration := by
    intro p s q d hd
    simp only [ten, Option.some.injEq, Prod.mk.injEq] at hd
    refine ⟨Or.inl ?_, ?_⟩
    · simp [TimeInt.timeIntegration, TimeInt.attempts, TimeInt.update]
    · simp [TimeInt.timeIntegration, TimeInt.attempts, TimeInt.update, ← hd.2]

/-- **C151, violated** The first step of an episode has the size of the last step of the previous one, even if that step was made smaller by the
end of the episode, although a larger size has been imposed, and there is enough time left for it: sizes are only chosen if no episode ends. -/
theorem C151_imposed_violated :
    completedSteps (run ten 60 (start ⟨0, 0, 100, 10, 0, 0, 0, 25, false⟩ ())).trace = [10, 10, 5, 5, 10, 10, 10] := by
  decide +kernel

end Verif.StepSize
