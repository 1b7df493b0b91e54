import Verif.ParRestart.Spec
import Verif.ParSim.Props
import Verif.ParBalance.Lemmas
import Verif.RestartSim.Lemmas
import Verif.Names.Props

/-
Lemmas for C183.
-/

set_option autoImplicit false
set_option linter.unusedSectionVars false

namespace Verif.ParRestart

open Verif.TimeLoop Verif.ParSim Verif.ParNewton Verif.Overlap Verif.Newton Verif.Restart Verif.Names
open Verif.ParSolve (Enumerates)

/-! ### What is left from earlier calls of the Newton method -/

section
variable {K V W : Type} [Field K] [LinearOrder K] [IsStrictOrderedRing K]

/-- The same iterates; errors of iterations which were done are the same. -/
structure Apart (st st' : NState K V) : Prop where
  sol : st.sol = st'.sol
  iterations : st.iterations = st'.iterations
  error : 1 ≤ st.iterations → st.error = st'.error
  lastError : 2 ≤ st.iterations → st.lastError = st'.lastError

/-- As far as the end of a call is concerned -/
def Ends (st st' : NState K V) : Prop := st.sol = st'.sol ∧ st.iterations = st'.iterations

def ApartResult : PassResult K V → PassResult K V → Prop
  | .again st, .again st' => Apart st st' ∧ 1 ≤ st.iterations
  | .leave st, .leave st' => Apart st st' ∧ 1 ≤ st.iterations
  | .failure st, .failure st' => Ends st st'
  | .thrown st, .thrown st' => Ends st st'
  | _, _ => False

theorem Apart.ends {st st' : NState K V} (h : Apart st st') : Ends st st' := ⟨h.sol, h.iterations⟩

theorem endIteration_apart (env : Newton.Env K V W) (st st' : NState K V) (hs : st.sol = st'.sol) (hi : st.iterations = st'.iterations)
    (he : st.error = st'.error) (hl : 1 ≤ st.iterations → st.lastError = st'.lastError) (k : NState K V → PassResult K V)
    (hk : ∀ st st', Apart st st' → 1 ≤ st.iterations → ApartResult (k st) (k st')) :
    ApartResult (Newton.endIteration env st k) (Newton.endIteration env st' k) := by
  unfold Newton.endIteration
  simp only [hi]
  split_ifs
  · refine hk _ _ ⟨hs, rfl, fun _ => he, fun h => hl (by simp only at h; omega)⟩ (by simp)
  · exact ⟨hs, rfl⟩

theorem proceed_apart (env : Newton.Env K V W) {st st' : NState K V} (h2 : 2 ≤ env.maxIterations) (h : Apart st st') :
    proceed env st = proceed env st' := by
  unfold proceed
  rw [← h.iterations]
  by_cases h1 : st.iterations < 1
  · rw [if_pos h1, if_pos h1]
  · rw [if_neg h1, if_neg h1]
    have he := h.error (by omega)
    have hc : converged env st = converged env st' := by unfold converged; rw [he]
    rw [hc]
    by_cases h3 : env.maxIterations ≤ st.iterations
    · rw [he, h.lastError (by omega)]
    · rw [if_neg h3, if_neg h3]

theorem pass_apart (env : Newton.Env K V W) {st st' : NState K V} (h : Apart st st') : ApartResult (Newton.pass env st) (Newton.pass env st') := by
  obtain ⟨s, e, l, n⟩ := st
  obtain ⟨s', e', l', n'⟩ := st'
  obtain ⟨hs, hn, he, hl⟩ := h
  simp only at hs hn he hl
  subst hs hn
  have hp : ∀ x (r : Fl K), proceed env { sol := x, error := r, lastError := e, iterations := n } =
      proceed env { sol := x, error := r, lastError := e', iterations := n } := by
    intro x r
    unfold proceed
    by_cases h1 : n < 1
    · rw [if_pos h1, if_pos h1]
    · rw [he (by omega)]
  unfold Newton.pass
  simp only
  by_cases hb : env.beginIterationOk n = true
  · rw [if_neg (by simp [hb]), if_neg (by simp [hb])]
    cases env.linearize n (applyConstraints env s) with
    | caught => exact ⟨rfl, rfl⟩
    | other => exact ⟨rfl, rfl⟩
    | residual r =>
      simp only [hp]
      split_ifs
      · exact ⟨rfl, rfl⟩
      · refine endIteration_apart env _ _ ?_ ?_ ?_ ?_ _ ?_
        · rfl
        · rfl
        · rfl
        · exact he
        · exact fun _ _ h h1 => ⟨h, h1⟩
      · cases env.solve n (applyConstraints env s) with
        | caught => exact ⟨rfl, rfl⟩
        | other => exact ⟨rfl, rfl⟩
        | notConverged => exact ⟨rfl, rfl⟩
        | update u finite =>
          cases finite
          · exact ⟨rfl, rfl⟩
          · refine endIteration_apart env _ _ ?_ ?_ ?_ ?_ _ ?_
            · rfl
            · rfl
            · rfl
            · exact he
            · exact fun _ _ h h1 => ⟨h, h1⟩
  · rw [if_pos (by simp [hb]), if_pos (by simp [hb])]
    exact ⟨rfl, rfl⟩

def EndsAlike : Option (Newton.Outcome × NState K V) → Option (Newton.Outcome × NState K V) → Prop
  | none, none => True
  | some (o, st), some (o', st') => o = o' ∧ Ends st st'
  | _, _ => False

theorem afterLoop_apart (env : Newton.Env K V W) {st st' : NState K V} (h : Apart st st') (h1 : 1 ≤ st.iterations) :
    EndsAlike (some (afterLoop env st)) (some (afterLoop env st')) := by
  have hc : converged env st = converged env st' := by unfold converged; rw [h.error h1]
  unfold afterLoop
  rw [hc]
  split_ifs
  · exact ⟨rfl, h.ends⟩
  · exact ⟨rfl, h.sol, rfl⟩

theorem loop_apart (env : Newton.Env K V W) (h2 : 2 ≤ env.maxIterations) :
    ∀ fuel (st st' : NState K V), Apart st st' → EndsAlike (Newton.loop env fuel st) (Newton.loop env fuel st')
  | 0, _, _, _ => trivial
  | fuel + 1, st, st', h => by
    unfold Newton.loop
    rw [← proceed_apart env h2 h]
    by_cases hp : proceed env st = true
    · rw [if_pos hp, if_pos hp]
      have := pass_apart env h
      revert this
      cases Newton.pass env st <;> cases Newton.pass env st' <;> intro this <;> first
        | exact this.elim
        | exact loop_apart env h2 fuel _ _ this.1
        | exact afterLoop_apart env this.1 this.2
        | exact ⟨rfl, this.1, rfl⟩
        | exact ⟨rfl, this⟩
    · rw [if_neg hp, if_neg hp]
      refine afterLoop_apart env h ?_
      by_contra h0
      exact hp (by unfold proceed; rw [if_pos (by omega)])

/-- The errors which are left from earlier calls have no effect. -/
theorem apply_apart (env : Newton.Env K V W) (h2 : 2 ≤ env.maxIterations) (s : ℕ → V) (e l e' l' : Fl K) (fuel : ℕ) :
    EndsAlike (Newton.apply env s e l fuel) (Newton.apply env s e' l' fuel) :=
  loop_apart env h2 fuel _ _ ⟨rfl, rfl, fun h => absurd h (by simp), fun h => absurd h (by simp)⟩

end

section
variable {K S X : Type} [Field K] [LinearOrder K] [IsStrictOrderedRing K]

/-- A solver which does the same whatever is left from earlier calls -/
def Steady (f : Solver K S) : Prop := ∀ dt m m' s old, (f dt m s old).1 = (f dt m' s old).1 ∧
  ((∀ it, (f dt m s old).1 ≠ .thrown it) → (f dt m s old).2.iterations = (f dt m' s old).2.iterations)

theorem attempts_steady (minDt : K) (cont : Bool) {f : Solver K S} (hf : Steady f) : ∀ n (st : TimeInt.St K S) (m m' : Memory K),
    (attempts minDt cont f n st m).1 = (attempts minDt cont f n st m').1 ∧
      (attempts minDt cont f n st m).2.1 = (attempts minDt cont f n st m').2.1 ∧
        ((attempts minDt cont f n st m).1 ≠ .gaveUp → (attempts minDt cont f n st m).1 ≠ .thrown →
          (attempts minDt cont f n st m).2.2.iterations = (attempts minDt cont f n st m').2.2.iterations)
  | 0, _, _, _ => ⟨rfl, rfl, fun h => absurd rfl h⟩
  | n + 1, st, m, m' => by
    obtain ⟨h1, h2⟩ := hf st.dt m m' st.sol0 st.sol1
    cases hr : f st.dt m st.sol0 st.sol1 with
    | mk o r =>
      cases hr' : f st.dt m' st.sol0 st.sol1 with
      | mk o' r' =>
        rw [hr, hr'] at h1 h2
        simp only at h1 h2
        subst h1
        cases o with
        | thrown it =>
          simp only [attempts, update, hr, hr']
          exact ⟨trivial, trivial, fun _ h => absurd rfl h⟩
        | returned it b =>
          have h2' := h2 fun _ => by simp
          cases b
          · simp only [attempts, update, hr, hr']
            by_cases hc : st.dt < minDt * (1 + TimeInt.relTol K)
            · simp only [if_pos hc]
              cases cont
              · exact ⟨rfl, rfl, fun h => absurd rfl h⟩
              · exact ⟨rfl, rfl, fun _ _ => h2'⟩
            · simp only [if_neg hc]
              exact attempts_steady minDt cont hf n _ r r'
          · simp only [attempts, update, hr, hr']
            exact ⟨trivial, trivial, fun _ _ => h2'⟩

/-- The same state, except for what is left of the Newton method; its number of iterations is the same between a time step and the choice
of the size of the next one. -/
def Forgot (c c' : Conf K (ParSim.St K S X)) : Prop := ∃ m', c' = { c with prob := { c.prob with memory := m' } } ∧
  (c.pc = .endStep ∨ c.pc = .output ∨ c.pc = .advance ∨ c.pc = .endEp ∨ c.pc = .select ∨ c.pc = .restart →
    c.prob.memory.iterations = m'.iterations)

theorem lift_forgot {f : Hook K S X} (hf : ∀ own s m m' sim, f own s m sim = f own s m' sim) (p : ParSim.St K S X) (m' : Memory K) (sim : Sim K) :
    lift f { p with memory := m' } sim = (lift f p sim).map fun r => ({ r.1 with memory := m' }, r.2) := by
  unfold lift
  simp only [hf p.own p.sol0 m' p.memory sim]
  cases f p.own p.sol0 p.memory sim <;> rfl

theorem lift_memory {f : Hook K S X} {p q : ParSim.St K S X} {sim : Sim K} {cmds : List (Cmd K)} (h : lift f p sim = some (q, cmds)) :
    q.memory = p.memory := by
  unfold lift at h
  simp only [Option.map_eq_some_iff, Prod.mk.injEq] at h
  obtain ⟨r, -, rfl, -⟩ := h
  rfl

theorem call_forgot {cb : Callback K (ParSim.St K S X)} {c : Conf K (ParSim.St K S X)} {m' : Memory K} (ev : List (Event K))
    (hcb : cb { c.prob with memory := m' } c.sim = (cb c.prob c.sim).map fun r => ({ r.1 with memory := m' }, r.2))
    (hm : ∀ q cmds, cb c.prob c.sim = some (q, cmds) → q.memory = c.prob.memory)
    (k : Conf K (ParSim.St K S X) → Conf K (ParSim.St K S X))
    (hk : ∀ d : Conf K (ParSim.St K S X), d.prob.memory = c.prob.memory → Forgot (k d) (k { d with prob := { d.prob with memory := m' } })) :
    Forgot (call cb c ev k) (call cb { c with prob := { c.prob with memory := m' } } ev k) := by
  unfold call
  simp only [hcb]
  cases hr : cb c.prob c.sim with
  | none => exact ⟨m', rfl, by simp⟩
  | some r =>
    obtain ⟨q, cmds⟩ := r
    exact hk _ (hm q cmds hr)

variable {solver : X → Solver K S} {h : Hooks K S X}

theorem step_forgot (hs : ∀ own, Steady (solver own)) (hh : Forgetful h) {c c' : Conf K (ParSim.St K S X)} (hc : Forgot c c') :
    Forgot (step (problem solver h) c) (step (problem solver h) c') := by
  obtain ⟨m', rfl, hi⟩ := hc
  obtain ⟨pc, sim, pr, eb, tr⟩ := c
  cases pc
  case head =>
    simp only [step]
    split_ifs <;> exact ⟨m', rfl, by simp⟩
  case beginEp =>
    dsimp only [step, problem]
    refine call_forgot (c := ⟨.beginEp, sim, pr, eb, tr⟩) (m' := m') _ (lift_forgot hh.beginEpisode _ _ _) (fun _ _ h => lift_memory h) _ fun d hd => ?_
    simp only
    split_ifs <;> exact ⟨m', rfl, by simp⟩
  case beginStep =>
    dsimp only [step, problem]
    refine call_forgot (c := ⟨.beginStep, sim, pr, eb, tr⟩) (m' := m') _ (lift_forgot hh.beginTimeStep _ _ _) (fun _ _ h => lift_memory h) _ fun d hd => ?_
    simp only
    split_ifs <;> exact ⟨m', rfl, by simp⟩
  case endStepStop =>
    dsimp only [step, problem]
    exact call_forgot (c := ⟨.endStepStop, sim, pr, eb, tr⟩) (m' := m') _ (lift_forgot hh.endTimeStep _ _ _) (fun _ _ h => lift_memory h) _ fun d hd => ⟨m', rfl, by simp⟩
  case endEpStop =>
    dsimp only [step, problem]
    exact call_forgot (c := ⟨.endEpStop, sim, pr, eb, tr⟩) (m' := m') _ (lift_forgot hh.endEpisode _ _ _) (fun _ _ h => lift_memory h) _ fun d hd => ⟨m', rfl, by simp⟩
  case integrate =>
    obtain ⟨a1, a2, a3⟩ := attempts_steady h.minDt h.continueOnError (hs pr.own) h.maxFails ⟨pr.sol0, pr.sol1, sim.dt⟩ pr.memory m'
    simp only [step, problem]
    cases hr : attempts h.minDt h.continueOnError (solver pr.own) h.maxFails ⟨pr.sol0, pr.sol1, sim.dt⟩ pr.memory with
    | mk o r =>
      cases hr' : attempts h.minDt h.continueOnError (solver pr.own) h.maxFails ⟨pr.sol0, pr.sol1, sim.dt⟩ m' with
      | mk o' r' =>
        obtain ⟨st, m1⟩ := r
        obtain ⟨st', m1'⟩ := r'
        rw [hr, hr'] at a1 a2 a3
        simp only at a1 a2 a3
        subst a1 a2
        cases o
        · exact ⟨m1', rfl, fun _ => a3 (by simp) (by simp)⟩
        · exact ⟨m1', rfl, fun _ => a3 (by simp) (by simp)⟩
        · exact ⟨m', rfl, by simp⟩
        · exact ⟨m', rfl, by simp⟩
  case endStep =>
    dsimp only [step, problem]
    refine call_forgot (c := ⟨.endStep, sim, pr, eb, tr⟩) (m' := m') _ (lift_forgot hh.endTimeStep _ _ _) (fun _ _ h => lift_memory h) _ fun d hd => ⟨m', rfl, fun _ => ?_⟩
    rw [← hi (by simp)]
    exact congrArg _ hd
  case output =>
    dsimp only [step, problem]
    refine call_forgot (c := ⟨.output, sim, pr, eb, tr⟩) (m' := m') _ (lift_forgot hh.writeOutput _ _ _) (fun _ _ h => lift_memory h) _ fun d hd => ⟨m', rfl, fun _ => ?_⟩
    rw [← hi (by simp)]
    exact congrArg _ hd
  case advance =>
    dsimp only [step, problem]
    refine call_forgot (c := ⟨.advance, sim, pr, eb, tr⟩) (m' := m') _ ?_ ?_ _ fun d hd => ⟨m', rfl, fun _ => ?_⟩
    · simp only [hh.advanceTimeLevel pr.own pr.sol0 m' pr.memory sim]
      cases h.advanceTimeLevel pr.own pr.sol0 pr.memory sim <;> rfl
    · intro q cmds hq
      simp only [Option.map_eq_some_iff, Prod.mk.injEq] at hq
      obtain ⟨r, -, rfl, -⟩ := hq
      rfl
    · rw [← hi (by simp)]
      exact congrArg _ hd
  case endEp =>
    dsimp only [step, problem]
    refine call_forgot (c := ⟨.endEp, sim, pr, eb, tr⟩) (m' := m') _ (lift_forgot hh.endEpisode _ _ _) (fun _ _ h => lift_memory h) _ fun d hd => ⟨m', rfl, fun _ => ?_⟩
    rw [← hi (by simp)]
    exact congrArg _ hd
  case select =>
    have hi' := hi (by simp)
    refine ⟨m', ?_, fun _ => hi'⟩
    simp only [step, problem]
    simp only at hi'
    rw [hh.nextTimeStepSize pr.own pr.sol0 pr.memory m' sim hi']
  case restart =>
    dsimp only [step, problem]
    exact call_forgot (c := ⟨.restart, sim, pr, eb, tr⟩) (m' := m') _ (lift_forgot hh.writeRestart _ _ _) (fun _ _ h => lift_memory h) _ fun d hd => ⟨m', rfl, by simp⟩
  case fin =>
    dsimp only [step, problem]
    exact call_forgot (c := ⟨.fin, sim, pr, eb, tr⟩) (m' := m') _ (lift_forgot hh.finalize _ _ _) (fun _ _ h => lift_memory h) _ fun d hd => ⟨m', rfl, by simp⟩
  case done => exact ⟨m', rfl, hi⟩
  case aborted => exact ⟨m', rfl, hi⟩
  case thrown => exact ⟨m', rfl, hi⟩

theorem run_forgot (hs : ∀ own, Steady (solver own)) (hh : Forgetful h) (n : ℕ) {c c' : Conf K (ParSim.St K S X)} (hc : Forgot c c') :
    Forgot (run (problem solver h) n c) (run (problem solver h) n c') := by
  induction n with
  | zero => exact hc
  | succ n ih => rw [ParBalance.run_succ, ParBalance.run_succ]; exact step_forgot hs hh ih

end

section
variable {P N E : ℕ} {G K V X : Type} [Field K] [LinearOrder K] [IsStrictOrderedRing K] [Inhabited V]

theorem one_steady {task : Task G E K V X} (ht : Patient task) (cell : Fin N → G) (own : X) : Steady (oneSolver (fun dt mem old =>
    single (task.equations own dt (onCells cell fun k => old k)) cell (task.settings own dt mem)) task.fuel) := by
  intro dt m m' s old
  have h2 : 2 ≤ (single (task.equations own dt (onCells cell fun k => old k)) cell (task.settings own dt m)).maxIterations := ht.two own dt m
  have := apply_apart _ h2 s m.error m.lastError m'.error m'.lastError task.fuel
  simp only [oneSolver]
  rw [ht.settings own dt m' m]
  revert this
  cases Newton.apply (single (task.equations own dt (onCells cell fun k => old k)) cell (task.settings own dt m)) s m.error m.lastError
      task.fuel with
  | none =>
    cases Newton.apply (single (task.equations own dt (onCells cell fun k => old k)) cell (task.settings own dt m)) s m'.error m'.lastError
        task.fuel with
    | none => exact fun _ => ⟨rfl, fun h => absurd rfl (h _)⟩
    | some r => exact fun h => h.elim
  | some r =>
    cases Newton.apply (single (task.equations own dt (onCells cell fun k => old k)) cell (task.settings own dt m)) s m'.error m'.lastError
        task.fuel with
    | none => exact fun h => h.elim
    | some r' =>
      obtain ⟨o, st⟩ := r
      obtain ⟨o', st'⟩ := r'
      rintro ⟨rfl, h1, h2⟩
      cases o
      · simp only [h1]; exact ⟨trivial, fun _ => h2⟩
      · simp only [h1]; exact ⟨trivial, fun _ => h2⟩
      · simp only [h1]; exact ⟨trivial, fun _ => h2⟩

/-- Some values of the processes for those of the whole grid -/
theorem exists_own {g : Grid (P + 1) G} {cell : Fin N → G} (hE : Enumerates g cell) (x : ℕ → V) : ∃ y, HaveOwn g cell y x := by
  classical
  refine ⟨fun p i => if hk : ∃ k, (g.cells p)[i]? = some (cell k) then x hk.choose else default, fun p i k hk _ => ?_⟩
  have hk' : ∃ k, (g.cells p)[i]? = some (cell k) := ⟨k, hk⟩
  simp only [dif_pos hk']
  rw [hE.1 (Option.some.inj (hk.symm.trans hk'.choose_spec))]

theorem forgetful_one {g : Grid (P + 1) G} {cell : Fin N → G} (hE : Enumerates g cell) {h : Hooks K (Fin (P + 1) → ℕ → V) X}
    {h1 : Hooks K (ℕ → V) X} (hh : SameHooks g cell h h1) (hf : Forgetful h) : Forgetful h1 := by
  have key : ∀ {f : Hook K (Fin (P + 1) → ℕ → V) X} {f1 : Hook K (ℕ → V) X}, SameHook g cell f f1 →
      (∀ own s m m' sim, f own s m sim = f own s m' sim) → ∀ own s m m' sim, f1 own s m sim = f1 own s m' sim := by
    intro f f1 hs hf own x m m' sim
    obtain ⟨y, hy⟩ := exists_own hE x
    rw [← hs own y x m sim hy, ← hs own y x m' sim hy, hf]
  exact
    { beginEpisode := key hh.beginEpisode hf.beginEpisode
      endEpisode := key hh.endEpisode hf.endEpisode
      beginTimeStep := key hh.beginTimeStep hf.beginTimeStep
      endTimeStep := key hh.endTimeStep hf.endTimeStep
      writeOutput := key hh.writeOutput hf.writeOutput
      advanceTimeLevel := key hh.advanceTimeLevel hf.advanceTimeLevel
      writeRestart := key hh.writeRestart hf.writeRestart
      finalize := key hh.finalize hf.finalize
      nextTimeStepSize := fun own x m m' sim e => by
        obtain ⟨y, hy⟩ := exists_own hE x
        rw [← hh.nextTimeStepSize own y x m sim hy, ← hh.nextTimeStepSize own y x m' sim hy, hf.nextTimeStepSize _ _ _ _ _ e] }

end

end Verif.ParRestart
