import Verif.ParCache.Spec

set_option autoImplicit false
set_option linter.unusedSectionVars false

namespace Verif.ParCache

open Verif.TimeLoop Verif.Newton Verif.ParNewton Verif.ParSolve.Block Verif.ParSim Verif.Overlap
open Verif.ParSolve (Enumerates)

variable {P N E : ℕ} {G K V X : Type} [Field K] [LinearOrder K] [IsStrictOrderedRing K] [Inhabited V]
variable {g : Grid (P + 1) G} {cell : Fin N → G} {task : Task G E K V X}
  {machine : X → K → Memory K → (Fin (P + 1) → ℕ → V) → ParNewton.Machine P E K V}

theorem started_cache {eqs : Equations G E K V} {set : Settings K} {M : ParNewton.Machine P E K V} (h : Started eqs set g cell M)
    (filled : Fin (P + 1) → ℕ → Bool) (s : Fin (P + 1) → ℕ → V) : Started eqs set g cell (withCache M filled s) := by
  obtain ⟨hl, hE, d, overlapSize, face, anyIdx, st, v, hs, hw, hp, hg, hr, hf, hR⟩ := h
  exact ⟨hl, hE, d, overlapSize, face, anyIdx, st, v, hs, hw, hp, hg, hr, hf, { hR with }⟩

theorem fresh_cache (M : ParNewton.Machine P E K V) (filled : Fin (P + 1) → ℕ → Bool) {s : Fin (P + 1) → ℕ → V} {x : ℕ → V}
    (h : HaveAll g cell s x) : Fresh g cell (withCache M filled s).cache x := by
  intro p i k hk w hw
  simp only [withCache] at hw
  split_ifs at hw
  simp only [Option.some.injEq] at hw
  rw [← hw]
  exact h p i k hk

/-- Results of the Newton method with a cache and on one process -/
def CachedSolved (g : Grid (P + 1) G) (cell : Fin N → G) :
    TimeInt.SolveResult (Fin (P + 1) → ℕ → V) × Memory K → TimeInt.SolveResult (ℕ → V) × Memory K → Prop
  | (.returned s b, m), (.returned s' b', m') => b = b' ∧ m = m' ∧ (b = true → m.iterations ≠ 1 → HaveAll g cell s s')
  | (.thrown _, m), (.thrown _, m') => m = m'
  | _, _ => False

theorem haveAll_of_own (hE : Enumerates g cell) {y : Fin (P + 1) → ℕ → V} {x z : ℕ → V} (ha : HaveAll g cell y z) (ho : HaveOwn g cell y x) :
    HaveAll g cell y x := by
  intro p i k hk
  obtain ⟨j, hj⟩ := List.getElem?_of_mem (show cell k ∈ g.cells (g.owner (cell k)) from (hE.2 _).2 ⟨k, rfl⟩)
  rw [ha p i k hk, ← ha _ j k hj, ho _ j k hj rfl]

theorem solver_cached (hE : Enumerates g cell) (hO : ∀ p, ∀ c ∈ g.cells p, c ∈ g.all) (hM : Performs task g cell machine)
    (filled : X → K → Memory K → Fin (P + 1) → ℕ → Bool) (own : X) (dt : K)
    (mem : Memory K) (y : Fin (P + 1) → ℕ → V) (x : ℕ → V) (y' : Fin (P + 1) → ℕ → V) (x' : ℕ → V) (h : HaveAll g cell y x)
    (h' : HaveAll g cell y' x') :
    CachedSolved g cell (cachedSolver (machine own) (filled own) task.fuel dt mem y y')
      (oneSolver (fun dt mem old => single (task.equations own dt (onCells cell fun k => old k)) cell (task.settings own dt mem)) task.fuel
        dt mem x x') := by
  obtain ⟨hs, -, hn⟩ := hM own dt mem y' _ (own_of_haveOwn hE hO (haveOwn_of_all h'))
  have hs := started_cache hs (filled own dt mem) y
  have hfresh := fresh_cache (machine own dt mem y') (filled own dt mem) h
  rw [← constrain_none (cell := cell) hn x] at hfresh
  have hsame := C161_newton_partial hs (haveOwn_of_all h) hfresh mem.error mem.lastError task.fuel
  have hcopy := C161_copies hs (haveOwn_of_all h) hfresh mem.error mem.lastError task.fuel
  unfold cachedSolver allSolver oneSolver
  simp only
  revert hsame hcopy
  cases ParNewton.apply (withCache (machine own dt mem y') (filled own dt mem) y) y mem.error mem.lastError task.fuel with
  | none =>
    cases Newton.apply (single (task.equations own dt (onCells cell fun k => x' k)) cell (task.settings own dt mem)) x mem.error
        mem.lastError task.fuel with
    | none => intro _ _; exact rfl
    | some q => exact fun h _ => h.elim
  | some e =>
    cases Newton.apply (single (task.equations own dt (onCells cell fun k => x' k)) cell (task.settings own dt mem)) x mem.error
        mem.lastError task.fuel with
    | none => cases e <;> exact fun h _ => h.elim
    | some q =>
      obtain ⟨out, t⟩ := q
      cases e with
      | deadlock => exact fun h _ => h.elim
      | finished r =>
        rintro ⟨k1, k2⟩ k3
        obtain ⟨e1, e2, e3, e4⟩ := k1 0
        simp only [e1, e2, e3, e4]
        cases out with
        | success =>
          refine ⟨rfl, rfl, fun _ hn => ?_⟩
          obtain ⟨z, hz⟩ := k3 r rfl ⟨0, e1⟩ ⟨0, by rw [e4]; exact hn⟩
          exact haveAll_of_own hE hz k2
        | failure => exact ⟨rfl, rfl, fun h => absurd h (by simp)⟩
        | thrown => exact rfl

theorem attempts_cached (minDt : K) (cont : Bool) {f : Solver K (Fin (P + 1) → ℕ → V)} {f' : Solver K (ℕ → V)}
    (h : ∀ dt mem s s' old old', HaveAll g cell s s' → HaveAll g cell old old' → CachedSolved g cell (f dt mem s old) (f' dt mem s' old'))
    (n : ℕ) : ∀ (dt : K) (mem : Memory K) (s old : Fin (P + 1) → ℕ → V) (s' old' : ℕ → V), HaveAll g cell s s' → HaveAll g cell old old' →
      (attempts minDt cont f n ⟨s, old, dt⟩ mem).1 = (attempts minDt cont f' n ⟨s', old', dt⟩ mem).1 ∧
      (attempts minDt cont f n ⟨s, old, dt⟩ mem).2.1.dt = (attempts minDt cont f' n ⟨s', old', dt⟩ mem).2.1.dt ∧
      (attempts minDt cont f n ⟨s, old, dt⟩ mem).2.2 = (attempts minDt cont f' n ⟨s', old', dt⟩ mem).2.2 ∧
      ((attempts minDt cont f n ⟨s, old, dt⟩ mem).1 ≠ .thrown → (attempts minDt cont f n ⟨s, old, dt⟩ mem).2.2.iterations ≠ 1 →
      HaveAll g cell (attempts minDt cont f n ⟨s, old, dt⟩ mem).2.1.sol0 (attempts minDt cont f' n ⟨s', old', dt⟩ mem).2.1.sol0 ∧
      HaveAll g cell (attempts minDt cont f n ⟨s, old, dt⟩ mem).2.1.sol1 (attempts minDt cont f' n ⟨s', old', dt⟩ mem).2.1.sol1) := by
  induction n with
  | zero => intro dt mem s old s' old' h1 h2; exact ⟨rfl, rfl, rfl, fun _ _ => ⟨h1, h2⟩⟩
  | succ n ih =>
    intro dt mem s old s' old' h1 h2
    have hs := h dt mem s s' old old' h1 h2
    unfold attempts update
    simp only
    revert hs
    rcases f dt mem s old with ⟨_ | _, m⟩ <;> rcases f' dt mem s' old' with ⟨_ | _, m'⟩
    · rename_i t b t' b'
      rintro ⟨rfl, rfl, k1⟩
      cases b with
      | true => exact ⟨rfl, rfl, rfl, fun _ hn => ⟨k1 rfl hn, h2⟩⟩
      | false =>
        simp only
        split_ifs
        · exact ⟨rfl, rfl, rfl, fun _ _ => ⟨h2, h2⟩⟩
        · exact ⟨rfl, rfl, rfl, fun _ _ => ⟨h2, h2⟩⟩
        · exact ih _ _ _ _ _ _ h2 h2
        · exact ih _ _ _ _ _ _ h2 h2
    · exact fun h => h.elim
    · exact fun h => h.elim
    · intro k1
      exact ⟨rfl, rfl, k1, fun h => absurd rfl h⟩

/-- States which correspond to each other, with right copies -/
def AllSt (g : Grid (P + 1) G) (cell : Fin N → G) (p : ParSim.St K (Fin (P + 1) → ℕ → V) X) (q : ParSim.St K (ℕ → V) X) : Prop :=
  p.own = q.own ∧ p.memory = q.memory ∧ HaveAll g cell p.sol0 q.sol0 ∧ HaveAll g cell p.sol1 q.sol1

/-- A problem whose time integration always throws -/
def idle {σ : Type} (A : Problem K σ) : Problem K σ := { A with timeIntegration := fun _ _ => none }

theorem step_idle {σ : Type} (A : Problem K σ) (c : Conf K σ) (h : c.pc ≠ .integrate) : step A c = step (idle A) c := by
  obtain ⟨pc, sim, prob, eb, tr⟩ := c
  cases pc <;> first | rfl | exact absurd rfl h

theorem lift_all {f : Hook K (Fin (P + 1) → ℕ → V) X} {f' : Hook K (ℕ → V) X} (h : SameHook g cell f f')
    (p : ParSim.St K (Fin (P + 1) → ℕ → V) X) (q : ParSim.St K (ℕ → V) X) (s : Sim K) (hpq : AllSt g cell p q) :
    AlikeResult (AllSt g cell) (lift f p s) (lift f' q s) := by
  obtain ⟨h1, h2, h3, h4⟩ := hpq
  have := h p.own p.sol0 q.sol0 p.memory s (haveOwn_of_all h3)
  unfold lift
  rw [this, h1, h2]
  cases f' q.own q.sol0 q.memory s with
  | none => trivial
  | some r => exact ⟨⟨rfl, rfl, h3, h4⟩, rfl⟩

theorem idle_alike {f : X → Solver K (Fin (P + 1) → ℕ → V)} {f' : X → Solver K (ℕ → V)}
    {h : Hooks K (Fin (P + 1) → ℕ → V) X} {h1 : Hooks K (ℕ → V) X} (hh : SameHooks g cell h h1) :
    Alike (AllSt g cell) (idle (problem f h)) (idle (problem f' h1)) where
  beginEpisode := lift_all hh.beginEpisode
  endEpisode := lift_all hh.endEpisode
  beginTimeStep := lift_all hh.beginTimeStep
  endTimeStep := lift_all hh.endTimeStep
  writeOutput := lift_all hh.writeOutput
  advanceTimeLevel p q s hpq := by
    obtain ⟨e1, e2, e3, e4⟩ := hpq
    have := hh.advanceTimeLevel p.own p.sol0 q.sol0 p.memory s (haveOwn_of_all e3)
    simp only [idle, problem]
    rw [this, e1, e2]
    cases h1.advanceTimeLevel q.own q.sol0 q.memory s with
    | none => trivial
    | some r => exact ⟨⟨rfl, rfl, e3, e3⟩, rfl⟩
  writeRestart := lift_all hh.writeRestart
  finalize := lift_all hh.finalize
  timeIntegration _ _ _ _ := trivial
  nextTimeStepSize p q s hpq := by
    obtain ⟨e1, e2, e3, -⟩ := hpq
    simp only [idle, problem]
    rw [hh.nextTimeStepSize p.own p.sol0 q.sol0 p.memory s (haveOwn_of_all e3), e1, e2]
  forcedTimeSteps := hh.forcedTimeSteps

/-- One step of the time loop -/
theorem step_cached (hE : Enumerates g cell) (hO : ∀ p, ∀ c ∈ g.cells p, c ∈ g.all) (hM : Performs task g cell machine)
    (filled : X → K → Memory K → Fin (P + 1) → ℕ → Bool) {h : Hooks K (Fin (P + 1) → ℕ → V) X} {h1 : Hooks K (ℕ → V) X}
    (hh : SameHooks g cell h h1) {c : Conf K (ParSim.St K (Fin (P + 1) → ℕ → V) X)} {c1 : Conf K (ParSim.St K (ℕ → V) X)}
    (hc : AlikeConf (AllSt g cell) c c1)
    (hi : ParBalance.Integrates (one task cell h1) c1 → (step (one task cell h1) c1).prob.memory.iterations ≠ 1) :
    AlikeConf (AllSt g cell) (step (severalCached task machine filled h) c) (step (one task cell h1) c1) := by
  by_cases hpc : c.pc = .integrate
  · have hpc1 : c1.pc = .integrate := hc.pc ▸ hpc
    have key := attempts_cached (g := g) (cell := cell) h.minDt h.continueOnError
      (fun dt mem s s' old old' a b => solver_cached hE hO hM filled c.prob.own dt mem s s' old old' a b) h.maxFails c.sim.dt c.prob.memory
      c.prob.sol0 c.prob.sol1 c1.prob.sol0 c1.prob.sol1 hc.prob.2.2.1 hc.prob.2.2.2
    obtain ⟨k1, k2, k3, k4⟩ := key
    unfold ParBalance.Integrates at hi
    revert hi
    simp only [step, hpc, hpc1, severalCached, one, problem, true_and]
    rw [← hc.sim, ← hc.prob.1, ← hc.prob.2.1, ← hh.minDt, ← hh.continueOnError, ← hh.maxFails]
    revert k1 k2 k3 k4
    rcases attempts h.minDt h.continueOnError (cachedSolver (machine c.prob.own) (filled c.prob.own) task.fuel) h.maxFails
      ⟨c.prob.sol0, c.prob.sol1, c.sim.dt⟩ c.prob.memory with ⟨o, st, m⟩
    rcases attempts h.minDt h.continueOnError (oneSolver (fun dt mem old =>
      single (task.equations c.prob.own dt (onCells cell fun k => old k)) cell (task.settings c.prob.own dt mem)) task.fuel) h.maxFails
      ⟨c1.prob.sol0, c1.prob.sol1, c.sim.dt⟩ c.prob.memory with ⟨o', st', m'⟩
    simp only
    rintro rfl k2 rfl k4
    cases o with
    | converged =>
      intro hi
      obtain ⟨a, b⟩ := k4 (by simp) (hi rfl)
      exact ⟨rfl, by simp only [k2], by simp only [k2, hc.trace], hc.episodeBegins, rfl, rfl, a, b⟩
    | accepted =>
      intro hi
      obtain ⟨a, b⟩ := k4 (by simp) (hi rfl)
      exact ⟨rfl, by simp only [k2], by simp only [k2, hc.trace], hc.episodeBegins, rfl, rfl, a, b⟩
    | gaveUp => intro _; exact ⟨rfl, rfl, hc.trace, hc.episodeBegins, hc.prob⟩
    | thrown => intro _; exact ⟨rfl, rfl, hc.trace, hc.episodeBegins, hc.prob⟩
  · rw [step_idle (severalCached task machine filled h) c hpc, step_idle (one task cell h1) c1 (hc.pc ▸ hpc)]
    exact step_alike (idle_alike hh) hc

/-! ### A first linearization with cached intensive quantities -/

/-- The machine which uses the cached intensive quantities in all iterations -/
def frozen (M : ParNewton.Machine P E K V) : ParNewton.Machine P E K V :=
  { M with cache := fun _ _ => none, linearize := fun n p x => M.linearize n p fun i => (M.cache p i).getD (x i) }

open Classical in
/-- What the owner of the cell `c` takes for the solution `X` -/
noncomputable def frozenValues (g : Grid (P + 1) G) (cache : Fin (P + 1) → ℕ → Option V) (c : G) (X : G → V) : G → V := fun c' =>
  if c' ∈ g.cells (g.owner c) then (cache (g.owner c) ((g.cells (g.owner c)).idxOf c')).getD (X c') else X c'

theorem frozenValues_apply {cache : Fin (P + 1) → ℕ → Option V} {c : G} (X : G → V) {p : Fin (P + 1)} (hp : g.owner c = p) (hn : (g.cells p).Nodup)
    {j : ℕ} {c' : G} (hj : (g.cells p)[j]? = some c') : frozenValues g cache c X c' = (cache p j).getD (X c') := by
  classical
  subst hp
  rw [frozenValues, if_pos (List.mem_of_getElem? hj)]
  obtain ⟨hi, rfl⟩ := List.getElem?_eq_some_iff.1 hj
  rw [hn.idxOf_getElem j hi]

/-- The equations which the processes see then -/
noncomputable def frozenEquations (eqs : Equations G E K V) (g : Grid (P + 1) G) (cache : Fin (P + 1) → ℕ → Option V) : Equations G E K V :=
  { eqs with row := fun c X => eqs.row c (frozenValues g cache c X) }

theorem started_frozen {eqs : Equations G E K V} {set : Settings K} {M : ParNewton.Machine P E K V} (h : Started eqs set g cell M)
    (hrow : ∀ c X, (eqs.row c X).isSome = true) : Started (frozenEquations eqs g M.cache) set g cell (frozen M) := by
  classical
  obtain ⟨hl, hE, d, overlapSize, face, anyIdx, st, v, hs, hw, hp, hg, hr, hf, hR⟩ := h
  refine ⟨⟨hl.nodup, hl.self, fun c X Y hXY => ?_⟩, hE, d, overlapSize, face, anyIdx, st, v, hs, hw, ⟨hp.nodup, hp.range, hp.own⟩, hg, hr, hf,
    { hR with
      linearized := fun n p x a b hlin => ?_
      failed := fun n p x hlin => ?_ }⟩
  · simp only [frozenEquations]
    refine hl.row c _ _ fun c' hc' => ?_
    rw [frozenValues, frozenValues, hXY c' hc']
  · obtain ⟨k1, k2, k3⟩ := hR.linearized n p _ a b hlin
    refine ⟨k1, k2, fun i c hc ho => ?_⟩
    obtain ⟨J, hJ, hJ'⟩ := k3 i c hc ho
    refine ⟨J, fun X hX => hJ _ fun j c' hj => ?_, hJ'⟩
    rw [frozenValues_apply X ho (v.nodup p) hj, hX j c' hj]
  · obtain ⟨c, hc, hn⟩ := hR.failed n p _ hlin
    have := hn (fun c' => (M.cache p ((g.cells p).idxOf c')).getD (x ((g.cells p).idxOf c'))) fun j c' hj => by
      obtain ⟨hi, rfl⟩ := List.getElem?_eq_some_iff.1 hj
      simp only [(v.nodup p).idxOf_getElem j hi]
    have h' := hrow c fun c' => (M.cache p ((g.cells p).idxOf c')).getD (x ((g.cells p).idxOf c'))
    rw [this] at h'
    exact absurd h' (by simp)

theorem pass_frozen (M : ParNewton.Machine P E K V) (n : ℕ) (st : State P K V) (h : ∀ p, (st p).iterations = 0) :
    ParNewton.pass (frozen M) n st = ParNewton.pass M n st := by
  have key : ∀ (st : State P K V) p, (st p).iterations = 0 → (frozen M).linearize n p (seen (frozen M) st p) = M.linearize n p (seen M st p) := by
    intro st p h
    simp only [frozen]
    congr 1
    funext i
    simp only [seen, if_pos h, Option.getD_none]
  have e1 : (frozen M).env = M.env := rfl
  have e2 : (frozen M).syncOverlap = M.syncOverlap := rfl
  have e3 : (frozen M).residual = M.residual := rfl
  have e4 : (frozen M).solve = M.solve := rfl
  have e5 : ∀ st k, ParNewton.endIteration (frozen M) st k = ParNewton.endIteration M st k := fun _ _ => rfl
  unfold ParNewton.pass
  simp only [e1, e2, e3, e4, e5, key, h]

theorem loop_frozen (M : ParNewton.Machine P E K V) (st : State P K V) (h : ∀ p, (st p).iterations = 0) :
    ParNewton.loop (frozen M) 1 0 st = ParNewton.loop M 1 0 st := by
  unfold ParNewton.loop
  rw [pass_frozen M 0 st h]
  rfl

theorem vote_yes {α : Type} {f : Fin (P + 1) → Bool} {a b n m y : α} (h : vote f a n m = y) (hab : a = y → b = y) : vote f b n m = y := by
  unfold vote at *
  split_ifs at h ⊢ <;> first | exact hab h | exact h

theorem loop_more (M : ParNewton.Machine P E K V) (st : State P K V) (e : Ended P K V) (h : ParNewton.loop M 1 0 st = some e) (fuel : ℕ) :
    ParNewton.loop M (fuel + 1) 0 st = some e := by
  unfold ParNewton.loop at *
  refine vote_yes h fun h => ?_
  revert h
  cases ParNewton.pass M 0 st with
  | again st' => exact fun h => absurd h (by simp [ParNewton.loop])
  | leave st' => exact id
  | failure st' => exact id
  | deadlock => exact id

/-- If the first residual which the processes see is too large, they fail. -/
theorem fails_frozen {eqs : Equations G E K V} {set : Settings K} {M : ParNewton.Machine P E K V} (h : Started eqs set g cell M)
    (hrow : ∀ c X, (eqs.row c X).isSome = true) {s : Fin (P + 1) → ℕ → V} {x : ℕ → V} (hown : HaveOwn g cell s x) (error lastError : Fl K)
    (hone : ∃ t, Newton.apply (single (frozenEquations eqs g M.cache) cell set) x error lastError 1 = some (.failure, t)) (fuel : ℕ) :
    ∃ r, ParNewton.apply M s error lastError (fuel + 1) = some (.finished r) ∧ (r 0).1 = .failure := by
  obtain ⟨t, ht⟩ := hone
  have hsame := C161_newton_partial (started_frozen h hrow) hown (fun _ _ _ _ w hw => absurd hw (by simp [frozen])) error lastError 1
  rw [ht] at hsame
  unfold ParNewton.apply at *
  rw [loop_frozen M _ fun _ => rfl] at hsame
  cases hr : ParNewton.loop M 1 0 fun p => { sol := s p, error := error, lastError := lastError, iterations := 0 } with
  | none => rw [hr] at hsame; exact hsame.elim
  | some e =>
    cases e with
    | deadlock => rw [hr] at hsame; exact hsame.elim
    | finished r =>
      rw [hr] at hsame
      exact ⟨r, loop_more M _ _ hr fuel, (hsame.1 0).1⟩

end Verif.ParCache
