import Verif.ParSim.Spec

/-
Two problems whose functions do the same things make the time loop do the same.
-/

set_option autoImplicit false
set_option linter.unusedSectionVars false

namespace Verif.ParSim

open Verif.TimeLoop Verif.Newton Verif.ParNewton Verif.ParSolve.Block Verif.Overlap
open Verif.ParSolve (Enumerates Wide Steps Covered mem_all steps_mem wide_one row_enumerates)

variable {K σ τ : Type} [Field K] [LinearOrder K]

/-- Results of callbacks which correspond to each other -/
def AlikeResult {α : Type} (R : σ → τ → Prop) : Option (σ × α) → Option (τ × α) → Prop
  | none, none => True
  | some (p, c), some (q, c') => R p q ∧ c = c'
  | _, _ => False

structure Alike (R : σ → τ → Prop) (A : Problem K σ) (B : Problem K τ) : Prop where
  beginEpisode : ∀ p q s, R p q → AlikeResult R (A.beginEpisode p s) (B.beginEpisode q s)
  endEpisode : ∀ p q s, R p q → AlikeResult R (A.endEpisode p s) (B.endEpisode q s)
  beginTimeStep : ∀ p q s, R p q → AlikeResult R (A.beginTimeStep p s) (B.beginTimeStep q s)
  endTimeStep : ∀ p q s, R p q → AlikeResult R (A.endTimeStep p s) (B.endTimeStep q s)
  writeOutput : ∀ p q s, R p q → AlikeResult R (A.writeOutput p s) (B.writeOutput q s)
  advanceTimeLevel : ∀ p q s, R p q → AlikeResult R (A.advanceTimeLevel p s) (B.advanceTimeLevel q s)
  writeRestart : ∀ p q s, R p q → AlikeResult R (A.writeRestart p s) (B.writeRestart q s)
  finalize : ∀ p q s, R p q → AlikeResult R (A.finalize p s) (B.finalize q s)
  timeIntegration : ∀ p q s, R p q → AlikeResult R (A.timeIntegration p s) (B.timeIntegration q s)
  nextTimeStepSize : ∀ p q s, R p q → A.nextTimeStepSize p s = B.nextTimeStepSize q s
  forcedTimeSteps : A.forcedTimeSteps = B.forcedTimeSteps

/-- The same point of the time loop -/
structure AlikeConf (R : σ → τ → Prop) (c : Conf K σ) (c' : Conf K τ) : Prop where
  pc : c.pc = c'.pc
  sim : c.sim = c'.sim
  trace : c.trace = c'.trace
  episodeBegins : c.episodeBegins = c'.episodeBegins
  prob : R c.prob c'.prob

variable {R : σ → τ → Prop} {A : Problem K σ} {B : Problem K τ}

theorem call_alike {cb : Callback K σ} {cb' : Callback K τ} (h : ∀ p q s, R p q → AlikeResult R (cb p s) (cb' q s)) {c : Conf K σ}
    {c' : Conf K τ} (hc : AlikeConf R c c') (ev : List (Event K)) {k : Conf K σ → Conf K σ} {k' : Conf K τ → Conf K τ}
    (hk : ∀ d d', AlikeConf R d d' → AlikeConf R (k d) (k' d')) : AlikeConf R (call cb c ev k) (call cb' c' ev k') := by
  have := h c.prob c'.prob c.sim hc.prob
  unfold call
  rw [← hc.sim, ← hc.trace]
  revert this
  cases cb c.prob c.sim with
  | none =>
    cases cb' c'.prob c.sim with
    | none => intro _; exact ⟨rfl, rfl, rfl, hc.episodeBegins, hc.prob⟩
    | some q => exact fun h => h.elim
  | some p =>
    cases cb' c'.prob c.sim with
    | none => exact fun h => h.elim
    | some q =>
      rintro ⟨h1, h2⟩
      simp only
      rw [h2]
      exact hk _ _ ⟨hc.pc, rfl, rfl, hc.episodeBegins, h1⟩

theorem step_alike (h : Alike R A B) {c : Conf K σ} {c' : Conf K τ} (hc : AlikeConf R c c') : AlikeConf R (step A c) (step B c') := by
  obtain ⟨pc, sim, prob, eb, tr⟩ := c
  obtain ⟨pc', sim', prob', eb', tr'⟩ := c'
  obtain ⟨h1, h2, h3, h4, h5⟩ := hc
  simp only at h1 h2 h3 h4 h5
  subst h1 h2 h3 h4
  have base : AlikeConf R (⟨pc, sim, prob, eb, tr⟩ : Conf K σ) ⟨pc, sim, prob', eb, tr⟩ := ⟨rfl, rfl, rfl, rfl, h5⟩
  cases pc with
  | head =>
    simp only [step]
    split_ifs <;> exact ⟨rfl, rfl, rfl, rfl, h5⟩
  | beginEp =>
    simp only [step]
    refine call_alike h.beginEpisode base _ fun d d' hd => ?_
    obtain ⟨e1, e2, e3, e4, e5⟩ := hd
    simp only [e2]
    split_ifs
    · exact ⟨rfl, rfl, e3, e4, e5⟩
    · exact ⟨rfl, rfl, e3, rfl, e5⟩
  | beginStep =>
    simp only [step]
    refine call_alike h.beginTimeStep base _ fun d d' hd => ?_
    obtain ⟨e1, e2, e3, e4, e5⟩ := hd
    simp only [e2]
    split_ifs
    · exact ⟨rfl, rfl, e3, e4, e5⟩
    · exact ⟨rfl, rfl, e3, e4, e5⟩
  | endStepStop =>
    simp only [step]
    exact call_alike h.endTimeStep base _ fun d d' hd => ⟨rfl, hd.sim, hd.trace, hd.episodeBegins, hd.prob⟩
  | endEpStop =>
    simp only [step]
    exact call_alike h.endEpisode base _ fun d d' hd => ⟨rfl, hd.sim, hd.trace, hd.episodeBegins, hd.prob⟩
  | integrate =>
    have := h.timeIntegration prob prob' sim h5
    simp only [step]
    revert this
    cases A.timeIntegration prob sim with
    | none =>
      cases B.timeIntegration prob' sim with
      | none => intro _; exact ⟨rfl, rfl, rfl, rfl, h5⟩
      | some q => exact fun h => h.elim
    | some p =>
      cases B.timeIntegration prob' sim with
      | none => exact fun h => h.elim
      | some q =>
        obtain ⟨p, d⟩ := p
        obtain ⟨q, d'⟩ := q
        rintro ⟨k1, k2⟩
        subst k2
        exact ⟨rfl, rfl, rfl, rfl, k1⟩
  | endStep =>
    simp only [step]
    exact call_alike h.endTimeStep base _ fun d d' hd => ⟨rfl, hd.sim, hd.trace, hd.episodeBegins, hd.prob⟩
  | output =>
    simp only [step]
    exact call_alike h.writeOutput base _ fun d d' hd => ⟨rfl, hd.sim, hd.trace, hd.episodeBegins, hd.prob⟩
  | advance =>
    simp only [step]
    refine call_alike h.advanceTimeLevel base _ fun d d' hd => ?_
    obtain ⟨e1, e2, e3, e4, e5⟩ := hd
    simp only [e2, e3]
    exact ⟨rfl, rfl, rfl, e4, e5⟩
  | endEp =>
    simp only [step]
    exact call_alike h.endEpisode base _ fun d d' hd => ⟨rfl, hd.sim, hd.trace, rfl, hd.prob⟩
  | select =>
    simp only [step]
    rw [h.nextTimeStepSize prob prob' sim h5, h.forcedTimeSteps]
    exact ⟨rfl, rfl, rfl, rfl, h5⟩
  | restart =>
    simp only [step]
    exact call_alike h.writeRestart base _ fun d d' hd => ⟨rfl, hd.sim, hd.trace, hd.episodeBegins, hd.prob⟩
  | fin =>
    simp only [step]
    exact call_alike h.finalize base _ fun d d' hd => ⟨rfl, hd.sim, hd.trace, hd.episodeBegins, hd.prob⟩
  | done => exact base
  | aborted => exact base
  | thrown => exact base

theorem run_alike (h : Alike R A B) (n : ℕ) : ∀ {c : Conf K σ} {c' : Conf K τ}, AlikeConf R c c' → AlikeConf R (run A n c) (run B n c') := by
  induction n with
  | zero => exact fun h => h
  | succ n ih =>
    intro c c' hc
    unfold run at *
    rw [Function.iterate_succ_apply, Function.iterate_succ_apply]
    exact ih (step_alike h hc)

/-! ### The time integration -/

section
variable {S S' : Type} {Q : S → S' → Prop}

/-- Results of the Newton method which correspond to each other -/
def AlikeSolved (Q : S → S' → Prop) : TimeInt.SolveResult S × Memory K → TimeInt.SolveResult S' × Memory K → Prop
  | (.returned s b, m), (.returned s' b', m') => Q s s' ∧ b = b' ∧ m = m'
  | (.thrown s, m), (.thrown s', m') => Q s s' ∧ m = m'
  | _, _ => False

theorem attempts_alike (minDt : K) (cont : Bool) {f : Solver K S} {f' : Solver K S'}
    (h : ∀ dt mem s s' old old', Q s s' → Q old old' → AlikeSolved Q (f dt mem s old) (f' dt mem s' old')) (n : ℕ) :
    ∀ (dt : K) (mem : Memory K) (s old : S) (s' old' : S'), Q s s' → Q old old' →
      (attempts minDt cont f n ⟨s, old, dt⟩ mem).1 = (attempts minDt cont f' n ⟨s', old', dt⟩ mem).1 ∧
      (attempts minDt cont f n ⟨s, old, dt⟩ mem).2.1.dt = (attempts minDt cont f' n ⟨s', old', dt⟩ mem).2.1.dt ∧
      Q (attempts minDt cont f n ⟨s, old, dt⟩ mem).2.1.sol0 (attempts minDt cont f' n ⟨s', old', dt⟩ mem).2.1.sol0 ∧
      Q (attempts minDt cont f n ⟨s, old, dt⟩ mem).2.1.sol1 (attempts minDt cont f' n ⟨s', old', dt⟩ mem).2.1.sol1 ∧
      (attempts minDt cont f n ⟨s, old, dt⟩ mem).2.2 = (attempts minDt cont f' n ⟨s', old', dt⟩ mem).2.2 := by
  induction n with
  | zero => intro dt mem s old s' old' h1 h2; exact ⟨rfl, rfl, h1, h2, rfl⟩
  | succ n ih =>
    intro dt mem s old s' old' h1 h2
    have hs := h dt mem s s' old old' h1 h2
    unfold attempts update
    simp only
    revert hs
    rcases f dt mem s old with ⟨_ | _, m⟩ <;> rcases f' dt mem s' old' with ⟨_ | _, m'⟩
    · rename_i t b t' b'
      rintro ⟨k1, rfl, rfl⟩
      cases b with
      | true => exact ⟨rfl, rfl, k1, h2, rfl⟩
      | false =>
        simp only
        split_ifs
        · exact ⟨rfl, rfl, h2, h2, rfl⟩
        · exact ⟨rfl, rfl, h2, h2, rfl⟩
        · exact ih _ _ _ _ _ _ h2 h2
        · exact ih _ _ _ _ _ _ h2 h2
    · exact fun h => h.elim
    · exact fun h => h.elim
    · rintro ⟨k1, rfl⟩
      exact ⟨rfl, rfl, k1, h2, rfl⟩

end

/-! ### Several processes and one -/

variable {P N E : ℕ} {G V X : Type} [IsStrictOrderedRing K] [Inhabited V]
variable {g : Grid (P + 1) G} {cell : Fin N → G} {task : Task G E K V X}
  {machine : X → K → Memory K → (Fin (P + 1) → ℕ → V) → ParNewton.Machine P E K V}

theorem own_of_haveOwn (hE : Enumerates g cell) (hO : ∀ p, ∀ c ∈ g.cells p, c ∈ g.all) {y : Fin (P + 1) → ℕ → V} {x : ℕ → V}
    (h : HaveOwn g cell y x) : Own g y (onCells cell fun k => x k) := by
  intro p i c hc ho
  obtain ⟨k, rfl⟩ := (hE.2 c).1 (hO p c (List.mem_of_getElem? hc))
  rw [onCells_apply hE]
  exact (h p i k hc ho).symm

theorem owned_of_started {eqs : Equations G E K V} {set : Settings K} {M : ParNewton.Machine P E K V} (h : Started eqs set g cell M) :
    ∀ p, ∀ c ∈ g.cells p, c ∈ g.all := by
  obtain ⟨d, overlapSize, face, anyIdx, s, v, -⟩ := h.exists_overlap
  exact fun p c hc => v.owned p c hc

theorem solver_alike (hE : Enumerates g cell) (hO : ∀ p, ∀ c ∈ g.cells p, c ∈ g.all) (hM : Performs task g cell machine) (own : X) (dt : K)
    (mem : Memory K) (y : Fin (P + 1) → ℕ → V) (x : ℕ → V) (y' : Fin (P + 1) → ℕ → V) (x' : ℕ → V) (h : HaveOwn g cell y x)
    (h' : HaveOwn g cell y' x') :
    AlikeSolved (HaveOwn g cell) (allSolver (machine own) task.fuel dt mem y y')
      (oneSolver (fun dt mem old => single (task.equations own dt (onCells cell fun k => old k)) cell (task.settings own dt mem)) task.fuel
        dt mem x x') := by
  obtain ⟨hs, hc, hn⟩ := hM own dt mem y' _ (own_of_haveOwn hE hO h')
  have hfresh : Fresh g cell (machine own dt mem y').cache x := by
    intro p i k _ w hw
    rw [hc] at hw
    exact absurd hw (by simp)
  rw [← constrain_none (cell := cell) hn x] at hfresh
  have := C161_newton_partial hs h hfresh mem.error mem.lastError task.fuel
  unfold allSolver oneSolver
  simp only
  revert this
  cases ParNewton.apply (machine own dt mem y') y mem.error mem.lastError task.fuel with
  | none =>
    cases Newton.apply (single (task.equations own dt (onCells cell fun k => x' k)) cell (task.settings own dt mem)) x mem.error
        mem.lastError task.fuel with
    | none => intro _; exact ⟨h, rfl⟩
    | some q => exact fun h => h.elim
  | some e =>
    cases Newton.apply (single (task.equations own dt (onCells cell fun k => x' k)) cell (task.settings own dt mem)) x mem.error
        mem.lastError task.fuel with
    | none => cases e <;> exact fun h => h.elim
    | some q =>
      obtain ⟨out, t⟩ := q
      cases e with
      | deadlock => exact fun h => h.elim
      | finished r =>
        rintro ⟨k1, k2⟩
        obtain ⟨e1, e2, e3, e4⟩ := k1 0
        simp only [e1, e2, e3, e4]
        cases out with
        | success => exact ⟨k2, rfl, rfl⟩
        | failure => exact ⟨k2, rfl, rfl⟩
        | thrown => exact ⟨k2, rfl⟩

/-- States which correspond to each other -/
def SameSt (g : Grid (P + 1) G) (cell : Fin N → G) (p : St K (Fin (P + 1) → ℕ → V) X) (q : St K (ℕ → V) X) : Prop :=
  p.own = q.own ∧ p.memory = q.memory ∧ HaveOwn g cell p.sol0 q.sol0 ∧ HaveOwn g cell p.sol1 q.sol1

theorem lift_alike {h : Hook K (Fin (P + 1) → ℕ → V) X} {h1 : Hook K (ℕ → V) X} (hh : SameHook g cell h h1)
    (p : St K (Fin (P + 1) → ℕ → V) X) (q : St K (ℕ → V) X) (s : Sim K) (hpq : SameSt g cell p q) :
    AlikeResult (SameSt g cell) (lift h p s) (lift h1 q s) := by
  obtain ⟨e1, e2, e3, e4⟩ := hpq
  unfold lift
  rw [hh p.own p.sol0 q.sol0 p.memory s e3, e1, e2]
  cases h1 q.own q.sol0 q.memory s with
  | none => trivial
  | some r => exact ⟨⟨rfl, rfl, e3, e4⟩, rfl⟩

theorem problem_alike (hE : Enumerates g cell) (hO : ∀ p, ∀ c ∈ g.cells p, c ∈ g.all) (hM : Performs task g cell machine)
    {h : Hooks K (Fin (P + 1) → ℕ → V) X} {h1 : Hooks K (ℕ → V) X} (hh : SameHooks g cell h h1) :
    Alike (SameSt g cell) (several task machine h) (one task cell h1) where
  beginEpisode := lift_alike hh.beginEpisode
  endEpisode := lift_alike hh.endEpisode
  beginTimeStep := lift_alike hh.beginTimeStep
  endTimeStep := lift_alike hh.endTimeStep
  writeOutput := lift_alike hh.writeOutput
  advanceTimeLevel p q s hpq := by
    obtain ⟨e1, e2, e3, e4⟩ := hpq
    show AlikeResult _ ((h.advanceTimeLevel p.own p.sol0 p.memory s).map _) ((h1.advanceTimeLevel q.own q.sol0 q.memory s).map _)
    rw [hh.advanceTimeLevel p.own p.sol0 q.sol0 p.memory s e3, e1, e2]
    cases h1.advanceTimeLevel q.own q.sol0 q.memory s with
    | none => trivial
    | some r => exact ⟨⟨rfl, rfl, e3, e3⟩, rfl⟩
  writeRestart := lift_alike hh.writeRestart
  finalize := lift_alike hh.finalize
  timeIntegration p q s hpq := by
    obtain ⟨e1, e2, e3, e4⟩ := hpq
    have := attempts_alike h.minDt h.continueOnError (solver_alike hE hO hM p.own) h.maxFails s.dt p.memory p.sol0 p.sol1 q.sol0 q.sol1 e3 e4
    simp only [several, one, problem]
    rw [← hh.minDt, ← hh.continueOnError, ← hh.maxFails, ← e1, ← e2]
    revert this
    rcases attempts h.minDt h.continueOnError (allSolver (machine p.own) task.fuel) h.maxFails ⟨p.sol0, p.sol1, s.dt⟩ p.memory with
      ⟨out, st, mem⟩
    rcases attempts h.minDt h.continueOnError (oneSolver (fun dt mem old =>
      single (task.equations p.own dt (onCells cell fun k => old k)) cell (task.settings p.own dt mem)) task.fuel) h.maxFails
      ⟨q.sol0, q.sol1, s.dt⟩ p.memory with ⟨out', st', mem'⟩
    rintro ⟨k1, k2, k3, k4, k5⟩
    simp only at k1 k2 k3 k4 k5
    subst k1
    cases out with
    | converged => exact ⟨⟨rfl, k5, k3, k4⟩, k2⟩
    | accepted => exact ⟨⟨rfl, k5, k3, k4⟩, k2⟩
    | gaveUp => trivial
    | thrown => trivial
  nextTimeStepSize p q s hpq := by
    obtain ⟨e1, e2, e3, e4⟩ := hpq
    show h.nextTimeStepSize p.own p.sol0 p.memory s = h1.nextTimeStepSize q.own q.sol0 q.memory s
    rw [hh.nextTimeStepSize p.own p.sol0 q.sol0 p.memory s e3, e1, e2]
  forcedTimeSteps := hh.forcedTimeSteps

end Verif.ParSim
