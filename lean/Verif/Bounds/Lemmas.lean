import Verif.Balance.Lemmas

/-
Lemmas for C165: what every update of the Newton method keeps holds during a whole simulation, and functions do not matter where it does
not hold.
-/

set_option autoImplicit false
set_option linter.unusedSectionVars false

namespace Verif.Bounds

open Verif.Newton Verif.TimeLoop Verif.Balance

section
variable {K V W : Type} [Field K] [LinearOrder K]

/-- All entries have values as they should be. -/
def All (I : ℕ → V → Prop) (s : ℕ → V) : Prop := ∀ i, I i (s i)

/-- Updates keep the values as they should be; there are neither constraints nor auxiliary equations. -/
structure Keeps (env : Env K V W) (I : ℕ → V → Prop) : Prop where
  total : env.numTotalDof = env.numGridDof
  free : ∀ i, env.constraints i = none
  update : ∀ i < env.numGridDof, ∀ x w, I i x → I i (env.updatePrimaryVariables i x w)

variable {env : Env K V W} {I : ℕ → V → Prop}

theorem applyConstraints_free (h : Keeps env I) (s : Vec V) : applyConstraints env s = s := by
  funext i
  simp [applyConstraints, h.free i]

theorem updateSolution_all (h : Keeps env I) (next current : Vec V) (u : Vec W) (hn : All I next) (hc : All I current) :
    All I (updateSolution env next current u) := by
  intro i
  simp only [updateSolution, h.free i]
  split
  · next hi => exact h.update i hi _ _ (hc i)
  · next hi => rw [if_neg (by rw [h.total]; exact hi)]; exact hn i

def PassResult.state : PassResult K V → NState K V
  | .again st => st
  | .leave st => st
  | .failure st => st
  | .thrown st => st

theorem endIteration_sol (st : NState K V) (k : NState K V → PassResult K V) (hk : ∀ st, (PassResult.state (k st)).sol = st.sol) :
    (PassResult.state (endIteration env st k)).sol = st.sol := by
  unfold endIteration
  simp only
  split
  · rw [hk]
  · rfl

theorem pass_all (h : Keeps env I) (st : NState K V) (hs : All I st.sol) :
    All I (PassResult.state (pass env st)).sol := by
  unfold pass
  simp only [applyConstraints_free h]
  split
  · exact hs
  · split
    · exact hs
    · exact hs
    · split
      · exact hs
      · split
        · rw [endIteration_sol _ _ fun _ => rfl]; exact hs
        · split
          · exact hs
          · exact hs
          · exact hs
          · split
            · exact hs
            · rw [endIteration_sol _ _ fun _ => rfl]
              exact updateSolution_all h _ _ _ hs hs

theorem afterLoop_sol (st : NState K V) : (afterLoop env st).2.sol = st.sol := by
  unfold afterLoop failedState
  split <;> rfl

theorem loop_all (h : Keeps env I) (fuel : ℕ) (st : NState K V) (hs : All I st.sol) (o : Outcome) (st' : NState K V)
    (he : loop env fuel st = some (o, st')) : All I st'.sol := by
  induction fuel generalizing st with
  | zero => cases he
  | succ fuel ih =>
    rw [loop] at he
    split at he
    · have hp := pass_all h st hs
      split at he
      · next st1 e => rw [e] at hp; exact ih st1 hp he
      · next st1 e =>
        rw [e] at hp
        have := congrArg (fun x => x.map fun y => y.2.sol) he
        simp only [Option.map_some, afterLoop_sol, Option.some.injEq] at this
        rw [← this]; exact hp
      · next st1 e =>
        rw [e] at hp
        cases he; exact hp
      · next st1 e =>
        rw [e] at hp
        cases he; exact hp
    · have := congrArg (fun x => x.map fun y => y.2.sol) he
      simp only [Option.map_some, afterLoop_sol, Option.some.injEq] at this
      rw [← this]; exact hs

/-- Two environments whose updates agree on values as they should be. -/
structure Agree (I : ℕ → V → Prop) (env env' : Env K V W) : Prop where
  keeps : Keeps env I
  rest : { env with updatePrimaryVariables := env'.updatePrimaryVariables } = env'
  update : ∀ i < env.numGridDof, ∀ x w, I i x → env.updatePrimaryVariables i x w = env'.updatePrimaryVariables i x w

theorem pass_agree {env' : Env K V W} (h : Agree I env env') (st : NState K V) (hs : All I st.sol) :
    pass env st = pass env' st := by
  have hu : ∀ next u, updateSolution env next st.sol u = updateSolution env' next st.sol u := by
    intro next u
    rw [← h.rest]
    funext i
    simp only [updateSolution]
    split
    · next hi => rw [h.keeps.free i]; exact h.update i hi _ _ (hs i)
    · rfl
  have e1 : endIteration env = endIteration env' := by rw [← h.rest]; rfl
  have e2 : computeError env = computeError env' := by rw [← h.rest]; rfl
  have e3 : proceed env = proceed env' := by rw [← h.rest]; rfl
  have e4 : applyConstraints env = applyConstraints env' := by rw [← h.rest]; rfl
  have e5 : env.linearize = env'.linearize := by rw [← h.rest]
  have e6 : env.solve = env'.solve := by rw [← h.rest]
  have e7 : env.maxError = env'.maxError := by rw [← h.rest]
  have e8 : env.beginIterationOk = env'.beginIterationOk := by rw [← h.rest]
  unfold pass
  simp only [e1, e2, e3, e4, e5, e6, e7, e8, hu]

theorem loop_agree {env' : Env K V W} (h : Agree I env env') (fuel : ℕ) (st : NState K V) (hs : All I st.sol) :
    loop env fuel st = loop env' fuel st := by
  have e3 : proceed env = proceed env' := by rw [← h.rest]; rfl
  have e4 : afterLoop env = afterLoop env' := by rw [← h.rest]; rfl
  have e5 : failedState env = failedState env' := by rw [← h.rest]; rfl
  induction fuel generalizing st with
  | zero => rfl
  | succ fuel ih =>
    rw [loop, loop, ← pass_agree h st hs, e3, e4, e5]
    have hp := pass_all h.keeps st hs
    split
    · cases hr : pass env st with
      | again st1 => rw [hr] at hp; exact ih st1 hp
      | leave st1 => rfl
      | failure st1 => rfl
      | thrown st1 => rfl
    · rfl

end

section
variable {K S : Type} [Field K] [LinearOrder K]

/-- What a solver answers if the solutions are as they should be. -/
def Fine (G : S → Prop) (solver : TimeInt.Solver K S) : Prop := ∀ a dt s old, G s → G old →
  match solver a dt s old with
  | .thrown it => G it
  | .returned it _ => G it

theorem update_fine {G : S → Prop} {solver : TimeInt.Solver K S} (h : Fine G solver) (i : ℕ) (st : TimeInt.St K S) (h0 : G st.sol0) (h1 : G st.sol1) :
    G (TimeInt.update solver i st).2.sol0 ∧ (TimeInt.update solver i st).2.sol1 = st.sol1 := by
  have := h i st.dt st.sol0 st.sol1 h0 h1
  unfold TimeInt.update
  split at this
  · next it e => rw [e]; exact ⟨this, rfl⟩
  · next it b e =>
    rw [e]
    cases b
    · exact ⟨h1, rfl⟩
    · exact ⟨this, rfl⟩

theorem attempts_fine {G : S → Prop} {solver : TimeInt.Solver K S} (h : Fine G solver) (minDt : K) (cont : Bool) (n i : ℕ) (st : TimeInt.St K S)
    (h0 : G st.sol0) (h1 : G st.sol1) :
    G (TimeInt.attempts minDt cont solver n i st).st.sol0 ∧ G (TimeInt.attempts minDt cont solver n i st).st.sol1 := by
  induction n generalizing i st with
  | zero => exact ⟨h0, h1⟩
  | succ n ih =>
    obtain ⟨g0, g1⟩ := update_fine h i st h0 h1
    rw [TimeInt.attempts]
    split
    · next st' e => rw [e] at g0 g1; exact ⟨g0, g1 ▸ h1⟩
    · next st' e => rw [e] at g0 g1; exact ⟨g0, g1 ▸ h1⟩
    · next st' e =>
      rw [e] at g0 g1
      simp only
      split
      · split <;> exact ⟨g0, g1 ▸ h1⟩
      · exact ih _ _ g0 (g1 ▸ h1)

theorem attempts_agree {G : S → Prop} {solver solver' : TimeInt.Solver K S} (h : Fine G solver)
    (e : ∀ a dt s old, G s → G old → solver a dt s old = solver' a dt s old) (minDt : K) (cont : Bool) (n i : ℕ) (st : TimeInt.St K S)
    (h0 : G st.sol0) (h1 : G st.sol1) : TimeInt.attempts minDt cont solver n i st = TimeInt.attempts minDt cont solver' n i st := by
  induction n generalizing i st with
  | zero => rfl
  | succ n ih =>
    obtain ⟨g0, g1⟩ := update_fine h i st h0 h1
    have hu : TimeInt.update solver' i st = TimeInt.update solver i st := by
      unfold TimeInt.update
      rw [e _ _ _ _ h0 h1]
    rw [TimeInt.attempts, TimeInt.attempts, hu]
    split
    · rfl
    · rfl
    · next st' e' =>
      rw [e'] at g0 g1
      simp only
      split
      · rfl
      · have := ih (i + 1) ⟨st'.sol0, st'.sol1, if st'.dt / 2 < minDt then minDt else st'.dt / 2⟩ g0 (g1 ▸ h1)
        rw [this]

end

section
variable {K PV W M C X : Type} {m : ℕ} [Field K] [LinearOrder K] [IsStrictOrderedRing K] [AddCommGroup M] [Module K M]

/-- Updates of the model keep values as they should be. -/
def Kept (f : Physics K PV M C X m) (q : Numerics K PV W M X m) (I : ℕ → PV → Prop) : Prop :=
  ∀ own attempt dt old, ∀ i < f.numCells, ∀ x w, I i x → I i ((q.base own attempt dt old).updatePrimaryVariables i x w)

variable {f : Physics K PV M C X m} {q : Numerics K PV W M X m} {I : ℕ → PV → Prop}

theorem env_keeps (h : Kept f q I) (own : X) (attempt : ℕ) (dt : K) (old : ℕ → PV) : Keeps (env f q own attempt dt old) I :=
  ⟨rfl, fun _ => rfl, fun i hi x w hx => h own attempt dt old i hi x w hx⟩

theorem solver_fine (h : Kept f q I) (own : X) : Fine (All I) (solver f q own) := by
  intro a dt s old hs _
  unfold solver
  cases ha : Newton.apply (env f q own a dt old) s (q.leftError own a dt old) (q.leftLastError own a dt old) q.fuel with
  | none => exact hs
  | some r =>
    obtain ⟨o, st⟩ := r
    have := loop_all (env_keeps h own a dt old) q.fuel ⟨s, q.leftError own a dt old, q.leftLastError own a dt old, 0⟩ hs o st ha
    cases o <;> exact this

/-- Both time levels are as they should be. -/
def Good (f : Physics K PV M C X m) (I : ℕ → PV → Prop) (p : Balance.St PV X) : Prop := All I p.sol0 ∧ All I p.sol1

theorem step_good (h : Kept f q I) (hk : Hooks K PV X) (c : Conf K (Balance.St PV X)) (hc : Good f I c.prob) :
    Good f I (step (problem f q hk) c).prob := by
  cases hpc : c.pc <;> simp only [step, hpc]
  case integrate =>
    have := attempts_fine (solver_fine h c.prob.own) q.minDt q.continueOnError q.maxFails 0 ⟨c.prob.sol0, c.prob.sol1, c.sim.dt⟩ hc.1 hc.2
    cases ht : (problem f q hk).timeIntegration c.prob c.sim with
    | none => exact hc
    | some r =>
      obtain ⟨p, d⟩ := r
      simp only [problem] at ht
      split at ht
      · cases ht; exact this
      · cases ht; exact this
      · cases ht
      · cases ht
  case head => split <;> (try split) <;> exact hc
  case select => exact hc
  case advance =>
    simp only [call, problem]
    split
    · exact hc
    · next p cmds hp =>
      simp only [Option.map_eq_some_iff, Prod.mk.injEq] at hp
      obtain ⟨r, -, rfl, rfl⟩ := hp
      try split
      all_goals exact ⟨hc.1, hc.1⟩
  all_goals first | exact hc | skip
  all_goals
    simp only [call, problem, lift]
    split
    · exact hc
    · next p cmds hp =>
      simp only [Option.map_eq_some_iff, Prod.mk.injEq] at hp
      obtain ⟨r, -, rfl, rfl⟩ := hp
      try split
      all_goals exact hc

theorem run_good (h : Kept f q I) (hk : Hooks K PV X) (sim : Sim K) (p : Balance.St PV X) (hp : Good f I p) (n : ℕ) :
    Good f I (run (problem f q hk) n (start sim p)).prob := by
  induction n with
  | zero => exact hp
  | succ n ih => rw [run_succ]; exact step_good h hk _ ih

/-- Numerics which differ in the updates of values which are not as they should be. -/
structure Alike (f : Physics K PV M C X m) (I : ℕ → PV → Prop) (q q' : Numerics K PV W M X m) : Prop where
  rest : { q with base := q'.base } = q'
  base : ∀ own attempt dt old, { q.base own attempt dt old with
    updatePrimaryVariables := (q'.base own attempt dt old).updatePrimaryVariables } = q'.base own attempt dt old
  update : ∀ own attempt dt old, ∀ i < f.numCells, ∀ x w, I i x →
    (q.base own attempt dt old).updatePrimaryVariables i x w = (q'.base own attempt dt old).updatePrimaryVariables i x w

theorem solver_alike {q' : Numerics K PV W M X m} (h : Kept f q I) (e : Alike f I q q') (own : X) (a : ℕ) (dt : K) (s old : ℕ → PV)
    (hs : All I s) : solver f q own a dt s old = solver f q' own a dt s old := by
  have : Agree I (env f q own a dt old) (env f q' own a dt old) := by
    refine ⟨env_keeps h own a dt old, ?_, fun i hi x w hx => e.update own a dt old i hi x w hx⟩
    unfold env
    rw [← e.base own a dt old, ← e.rest]
  have e' := loop_agree this q.fuel ⟨s, q.leftError own a dt old, q.leftLastError own a dt old, 0⟩ hs
  unfold solver Newton.apply
  rw [e', ← e.rest]

theorem run_alike {q' : Numerics K PV W M X m} (h : Kept f q I) (e : Alike f I q q') (hk : Hooks K PV X) (sim : Sim K)
    (p : Balance.St PV X) (hp : Good f I p) (n : ℕ) : run (problem f q hk) n (start sim p) = run (problem f q' hk) n (start sim p) := by
  induction n with
  | zero => rfl
  | succ n ih =>
    have hg := run_good h hk sim p hp n
    rw [run_succ, run_succ, ← ih]
    generalize run (problem f q hk) n (start sim p) = c at hg
    have ht : (problem f q hk).timeIntegration c.prob c.sim = (problem f q' hk).timeIntegration c.prob c.sim := by
      simp only [problem, TimeInt.timeIntegration]
      rw [attempts_agree (solver_fine h c.prob.own) (fun a dt s old hs _ => solver_alike h e c.prob.own a dt s old hs) q.minDt q.continueOnError
        q.maxFails 0 ⟨c.prob.sol0, c.prob.sol1, c.sim.dt⟩ hg.1 hg.2, ← e.rest]
    have hr : { problem f q hk with timeIntegration := (problem f q' hk).timeIntegration } = problem f q' hk := by
      unfold problem; rw [← e.rest]
    rw [← hr]
    cases hpc : c.pc <;> simp only [step, hpc]
    rw [ht]

end

end Verif.Bounds
