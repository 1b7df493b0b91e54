import Verif.ParSim.TiedModel
import Verif.ParSim.Props

/-
C162 with constraints.
-/

set_option autoImplicit false
set_option linter.unusedSectionVars false

namespace Verif.ParSim

open Verif.Mpi Verif.TimeLoop Verif.Newton Verif.ParNewton Verif.ParSolve.Block Verif.Overlap
open Verif.ParSolve (Enumerates Wide Steps Covered mem_all steps_mem wide_one row_enumerates)

variable {P N E : ℕ} {G K V X : Type} [Field K] [LinearOrder K] [IsStrictOrderedRing K] [Inhabited V]
variable {g : Grid (P + 1) G} {cell : Fin N → G} {task : Task G E K V X}
  {machine : X → K → Memory K → (Fin (P + 1) → ℕ → V) → ParNewton.Machine P E K V}

/-! ### Specification -/

/-- The processes run the code for the task, whose equations may have constraints: whatever the values of the previous time level are, they
solve the equations with the values which the owners of cells have; intensive quantities are not cached. -/
def PerformsTied (task : Task G E K V X) (g : Grid (P + 1) G) (cell : Fin N → G)
    (machine : X → K → Memory K → (Fin (P + 1) → ℕ → V) → ParNewton.Machine P E K V) : Prop :=
  ∀ own dt mem y old, Own g y old →
    Started (task.equations own dt old) (task.settings own dt mem) g cell (machine own dt mem y) ∧
      ((machine own dt mem y).cache = fun _ _ => none)

/-- The simulation on one process, with constraints -/
noncomputable def tiedOne (task : Task G E K V X) (cell : Fin N → G) (h : Hooks K (ℕ → V) X) : Problem K (St K (ℕ → V) X) :=
  tiedProblem (fun own => oneTied (fun dt mem old =>
    single (task.equations own dt (onCells cell fun k => old k)) cell (task.settings own dt mem)) task.fuel) h

/-- The simulation on several processes, with constraints -/
def tiedSeveral (task : Task G E K V X) (machine : X → K → Memory K → (Fin (P + 1) → ℕ → V) → ParNewton.Machine P E K V)
    (h : Hooks K (Fin (P + 1) → ℕ → V) X) : Problem K (St K (Fin (P + 1) → ℕ → V) X) :=
  tiedProblem (fun own => allTied (machine own) task.fuel) h

/-- The equations of a cell depend on the solution of the cells of its stencil and on the values of the previous time level of the cell
itself; constraints and stencils do not depend on the solutions. -/
structure LocalTied (task : Task G E K V X) : Prop where
  loc : ∀ own dt old, Local (task.equations own dt old)
  stencil : ∀ own dt old own' dt' old', (task.equations own dt old).stencil = (task.equations own' dt' old').stencil
  row : ∀ own dt old old' c, old c = old' c → (task.equations own dt old).row c = (task.equations own dt old').row c
  volume : ∀ own dt old old' c, old c = old' c → (task.equations own dt old).volume c = (task.equations own dt old').volume c
  weight : ∀ own dt old old' c, old c = old' c → (task.equations own dt old).weight c = (task.equations own dt old').weight c
  update : ∀ own dt old old' c, old c = old' c → (task.equations own dt old).update c = (task.equations own dt old').update c
  constraint : ∀ own dt old old', (task.equations own dt old).constraint = (task.equations own dt old').constraint

/-! ### Lemmas -/

section
variable {S S' : Type} {Q : S → S' → Prop}

/-- Results of the Newton method which correspond to each other -/
def AlikeTied (Q : S → S' → Prop) (a : TimeInt.SolveResult S × S × Memory K) (b : TimeInt.SolveResult S' × S' × Memory K) : Prop :=
  AlikeSolved Q (a.1, a.2.2) (b.1, b.2.2) ∧ Q a.2.1 b.2.1

theorem tiedAttempts_alike (minDt : K) (cont : Bool) {f : TiedSolver K S} {f' : TiedSolver K S'}
    (h : ∀ dt mem s s' old old', Q s s' → Q old old' → AlikeTied Q (f dt mem s old) (f' dt mem s' old')) (n : ℕ) :
    ∀ (dt : K) (mem : Memory K) (s old : S) (s' old' : S'), Q s s' → Q old old' →
      (tiedAttempts minDt cont f n ⟨s, old, dt⟩ mem).1 = (tiedAttempts minDt cont f' n ⟨s', old', dt⟩ mem).1 ∧
      (tiedAttempts minDt cont f n ⟨s, old, dt⟩ mem).2.1.dt = (tiedAttempts minDt cont f' n ⟨s', old', dt⟩ mem).2.1.dt ∧
      Q (tiedAttempts minDt cont f n ⟨s, old, dt⟩ mem).2.1.sol0 (tiedAttempts minDt cont f' n ⟨s', old', dt⟩ mem).2.1.sol0 ∧
      Q (tiedAttempts minDt cont f n ⟨s, old, dt⟩ mem).2.1.sol1 (tiedAttempts minDt cont f' n ⟨s', old', dt⟩ mem).2.1.sol1 ∧
      (tiedAttempts minDt cont f n ⟨s, old, dt⟩ mem).2.2 = (tiedAttempts minDt cont f' n ⟨s', old', dt⟩ mem).2.2 := by
  induction n with
  | zero => intro dt mem s old s' old' h1 h2; exact ⟨rfl, rfl, h1, h2, rfl⟩
  | succ n ih =>
    intro dt mem s old s' old' h1 h2
    have hs := h dt mem s s' old old' h1 h2
    unfold tiedAttempts tiedUpdate
    simp only
    revert hs
    rcases f dt mem s old with ⟨_ | _, o, m⟩ <;> rcases f' dt mem s' old' with ⟨_ | _, o', m'⟩
    · rename_i t b t' b'
      rintro ⟨⟨k1, rfl, rfl⟩, k2⟩
      cases b with
      | true => exact ⟨rfl, rfl, k1, k2, rfl⟩
      | false =>
        simp only
        split_ifs
        · exact ⟨rfl, rfl, k2, k2, rfl⟩
        · exact ⟨rfl, rfl, k2, k2, rfl⟩
        · exact ih _ _ _ _ _ _ k2 k2
        · exact ih _ _ _ _ _ _ k2 k2
    · exact fun h => h.1.elim
    · exact fun h => h.1.elim
    · rintro ⟨⟨k1, rfl⟩, k2⟩
      exact ⟨rfl, rfl, k1, k2, rfl⟩

end

theorem solver_alike_tied (hE : Enumerates g cell) (hO : ∀ p, ∀ c ∈ g.cells p, c ∈ g.all) (hM : PerformsTied task g cell machine) (own : X)
    (dt : K) (mem : Memory K) (y : Fin (P + 1) → ℕ → V) (x : ℕ → V) (y' : Fin (P + 1) → ℕ → V) (x' : ℕ → V) (h : HaveOwn g cell y x)
    (h' : HaveOwn g cell y' x') :
    AlikeSolved (HaveOwn g cell) (allSolver (machine own) task.fuel dt mem y y')
      (oneSolver (fun dt mem old => single (task.equations own dt (onCells cell fun k => old k)) cell (task.settings own dt mem)) task.fuel
        dt mem x x') := by
  obtain ⟨hs, hc⟩ := hM own dt mem y' _ (own_of_haveOwn hE hO h')
  have hfresh : Fresh g cell (machine own dt mem y').cache (constrain (task.equations own dt (onCells cell fun k => x' k)) cell x) := by
    intro p i k _ w hw
    rw [hc] at hw
    exact absurd hw (by simp)
  have := C161_newton_partial hs h hfresh mem.error mem.lastError task.fuel
  unfold allSolver oneSolver
  simp only
  revert this
  cases ParNewton.apply (machine own dt mem y') y mem.error mem.lastError task.fuel with
  | none =>
    cases Newton.apply (single (task.equations own dt (onCells cell fun k => x' k)) cell (task.settings own dt mem)) x mem.error
        mem.lastError task.fuel with
    | none => intro _; exact ⟨h, rfl⟩
    | some q => exact fun h => h.elim
  | some e =>
    cases Newton.apply (single (task.equations own dt (onCells cell fun k => x' k)) cell (task.settings own dt mem)) x mem.error
        mem.lastError task.fuel with
    | none => cases e <;> exact fun h => h.elim
    | some q =>
      obtain ⟨out, t⟩ := q
      cases e with
      | deadlock => exact fun h => h.elim
      | finished r =>
        rintro ⟨k1, k2⟩
        obtain ⟨e1, e2, e3, e4⟩ := k1 0
        simp only [e1, e2, e3, e4]
        cases out with
        | success => exact ⟨k2, rfl, rfl⟩
        | failure => exact ⟨k2, rfl, rfl⟩
        | thrown => exact ⟨k2, rfl⟩

theorem tied_alike (hE : Enumerates g cell) (hO : ∀ p, ∀ c ∈ g.cells p, c ∈ g.all) (hM : PerformsTied task g cell machine) (own : X) (dt : K)
    (mem : Memory K) (y : Fin (P + 1) → ℕ → V) (x : ℕ → V) (y' : Fin (P + 1) → ℕ → V) (x' : ℕ → V) (h : HaveOwn g cell y x)
    (h' : HaveOwn g cell y' x') :
    AlikeTied (HaveOwn g cell) (allTied (machine own) task.fuel dt mem y y')
      (oneTied (fun dt mem old => single (task.equations own dt (onCells cell fun k => old k)) cell (task.settings own dt mem)) task.fuel
        dt mem x x') := by
  obtain ⟨hs, -⟩ := hM own dt mem y' _ (own_of_haveOwn hE hO h')
  obtain ⟨d, overlapSize, face, anyIdx, s, -, -, -, -, -, -, -, R⟩ := hs.exists_overlap
  have hw : HaveOwn g cell
      (if ∀ p, ((machine own dt mem y').env p).beginIterationOk 0 = true then
        fun p => applyConstraints ((machine own dt mem y').env p) (y' p) else y')
      (if (single (task.equations own dt (onCells cell fun k => x' k)) cell (task.settings own dt mem)).beginIterationOk 0 = true then
        applyConstraints (single (task.equations own dt (onCells cell fun k => x' k)) cell (task.settings own dt mem)) x' else x') := by
    by_cases hb : ∀ p, ((machine own dt mem y').env p).beginIterationOk 0 = true
    · have hb1 : (single (task.equations own dt (onCells cell fun k => x' k)) cell (task.settings own dt mem)).beginIterationOk 0 = true :=
        (R.beginOk 0).2 hb
      rw [if_pos hb, if_pos hb1]
      intro p i k hk ho
      simp only [applyConstraints, single, R.constraints p i _ hk, dif_pos k.2, h' p i k hk ho]
    · have hb1 : ¬ (single (task.equations own dt (onCells cell fun k => x' k)) cell (task.settings own dt mem)).beginIterationOk 0 = true :=
        fun e => hb ((R.beginOk 0).1 e)
      rw [if_neg hb, if_neg hb1]
      exact h'
  exact ⟨solver_alike_tied hE hO hM own dt mem y x _ _ h hw, hw⟩

theorem tiedProblem_alike (hE : Enumerates g cell) (hO : ∀ p, ∀ c ∈ g.cells p, c ∈ g.all) (hM : PerformsTied task g cell machine)
    {h : Hooks K (Fin (P + 1) → ℕ → V) X} {h1 : Hooks K (ℕ → V) X} (hh : SameHooks g cell h h1) :
    Alike (SameSt g cell) (tiedSeveral task machine h) (tiedOne task cell h1) where
  beginEpisode := lift_alike hh.beginEpisode
  endEpisode := lift_alike hh.endEpisode
  beginTimeStep := lift_alike hh.beginTimeStep
  endTimeStep := lift_alike hh.endTimeStep
  writeOutput := lift_alike hh.writeOutput
  advanceTimeLevel p q s hpq := by
    obtain ⟨e1, e2, e3, e4⟩ := hpq
    show AlikeResult _ ((h.advanceTimeLevel p.own p.sol0 p.memory s).map _) ((h1.advanceTimeLevel q.own q.sol0 q.memory s).map _)
    rw [hh.advanceTimeLevel p.own p.sol0 q.sol0 p.memory s e3, e1, e2]
    cases h1.advanceTimeLevel q.own q.sol0 q.memory s with
    | none => trivial
    | some r => exact ⟨⟨rfl, rfl, e3, e3⟩, rfl⟩
  writeRestart := lift_alike hh.writeRestart
  finalize := lift_alike hh.finalize
  timeIntegration p q s hpq := by
    obtain ⟨e1, e2, e3, e4⟩ := hpq
    have := tiedAttempts_alike h.minDt h.continueOnError (tied_alike hE hO hM p.own) h.maxFails s.dt p.memory p.sol0 p.sol1 q.sol0 q.sol1 e3 e4
    simp only [tiedSeveral, tiedOne, tiedProblem]
    rw [← hh.minDt, ← hh.continueOnError, ← hh.maxFails, ← e1, ← e2]
    revert this
    rcases tiedAttempts h.minDt h.continueOnError (allTied (machine p.own) task.fuel) h.maxFails ⟨p.sol0, p.sol1, s.dt⟩ p.memory with
      ⟨out, st, mem⟩
    rcases tiedAttempts h.minDt h.continueOnError (oneTied (fun dt mem old =>
      single (task.equations p.own dt (onCells cell fun k => old k)) cell (task.settings p.own dt mem)) task.fuel) h.maxFails
      ⟨q.sol0, q.sol1, s.dt⟩ p.memory with ⟨out', st', mem'⟩
    rintro ⟨k1, k2, k3, k4, k5⟩
    simp only at k1 k2 k3 k4 k5
    subst k1
    cases out with
    | converged => exact ⟨⟨rfl, k5, k3, k4⟩, k2⟩
    | accepted => exact ⟨⟨rfl, k5, k3, k4⟩, k2⟩
    | gaveUp => trivial
    | thrown => trivial
  nextTimeStepSize p q s hpq := by
    obtain ⟨e1, e2, e3, e4⟩ := hpq
    show h.nextTimeStepSize p.own p.sol0 p.memory s = h1.nextTimeStepSize q.own q.sol0 q.memory s
    rw [hh.nextTimeStepSize p.own p.sol0 q.sol0 p.memory s e3, e1, e2]
  forcedTimeSteps := hh.forcedTimeSteps

open Classical in
theorem own_exists {d : Fin (P + 1) → Overlap.Native (P + 1)} (v : Valid g d) (y : Fin (P + 1) → ℕ → V) :
    Own g y fun c => y (g.owner c) ((g.cells (g.owner c)).idxOf c) := by
  intro p i c hc ho
  obtain ⟨hi, he⟩ := List.getElem?_eq_some_iff.1 hc
  have e := (v.nodup p).idxOf_getElem i hi
  rw [he] at e
  simp only [ho, e]

/-! ### C162 -/

/-- **C162** (partial) A whole simulation with constraints on several processes is the one on a single process which has the whole grid: as
`C162_simulation_partial`, but cells may have constraints, which depend on the state of the problem, on time and on the cell, and which
are written into the solutions of both time levels.  Missing for the full property: auxiliary equations, cached intensive quantities,
rounding errors. -/
theorem C162_constraints_partial (hE : Enumerates g cell) (hO : ∀ p, ∀ c ∈ g.cells p, c ∈ g.all) (hM : PerformsTied task g cell machine)
    {h : Hooks K (Fin (P + 1) → ℕ → V) X} {h1 : Hooks K (ℕ → V) X} (hh : SameHooks g cell h h1) (sim : Sim K) (own : X) (mem : Memory K)
    {y0 y1 : Fin (P + 1) → ℕ → V} {x0 x1 : ℕ → V} (e0 : HaveOwn g cell y0 x0) (e1 : HaveOwn g cell y1 x1) (n : ℕ) :
    Same g cell (run (tiedSeveral task machine h) n (start sim ⟨own, y0, y1, mem⟩))
      (run (tiedOne task cell h1) n (start sim ⟨own, x0, x1, mem⟩)) := by
  have : AlikeConf (SameSt g cell) (start sim (⟨own, y0, y1, mem⟩ : St K (Fin (P + 1) → ℕ → V) X))
      (start sim (⟨own, x0, x1, mem⟩ : St K (ℕ → V) X)) := ⟨rfl, rfl, rfl, rfl, rfl, rfl, e0, e1⟩
  obtain ⟨a1, a2, a3, a4, a5, a6, a7, a8⟩ := run_alike (tiedProblem_alike hE hO hM hh) n this
  exact ⟨a1, a2, a3, a4, a5, a6, a7, a8⟩

/-- **C162** With constraints, too, no process ever waits for others in vain, and all processes get the same answers from their Newton
methods: whatever values they have for their cells and their copies, and for those of the previous time level. -/
theorem C162_constraints_agree (v : ∃ d, Valid g d) (hM : PerformsTied task g cell machine) (own : X) (dt : K) (mem : Memory K)
    (y y' : Fin (P + 1) → ℕ → V) (error lastError : Fl K) (fuel : ℕ) :
    ParNewton.apply (machine own dt mem y') y error lastError fuel ≠ some .deadlock ∧
    ∀ r, ParNewton.apply (machine own dt mem y') y error lastError fuel = some (.finished r) → ∀ p q,
      (r p).1 = (r q).1 ∧ (r p).2.error = (r q).2.error ∧ (r p).2.lastError = (r q).2.lastError ∧
        (r p).2.iterations = (r q).2.iterations := by
  obtain ⟨d, v⟩ := v
  classical
  let x : ℕ → V := fun k => if hk : k < N then
    y (g.owner (cell ⟨k, hk⟩)) ((g.cells (g.owner (cell ⟨k, hk⟩))).idxOf (cell ⟨k, hk⟩)) else default
  have hx : HaveOwn g cell y x := by
    intro p i k hk ho
    simp only [x, dif_pos k.2]
    rw [ho]
    obtain ⟨hi, he⟩ := List.getElem?_eq_some_iff.1 hk
    have e := (v.nodup p).idxOf_getElem i hi
    rw [he] at e
    rw [e]
  obtain ⟨hs, hc⟩ := hM own dt mem y' _ (own_exists v y')
  have hfresh : Fresh g cell (machine own dt mem y').cache (constrain
      (task.equations own dt fun c => y' (g.owner c) ((g.cells (g.owner c)).idxOf c)) cell x) := by
    intro p i k _ w hw
    rw [hc] at hw
    exact absurd hw (by simp)
  have := C161_newton_partial hs hx hfresh error lastError fuel
  revert this
  cases ParNewton.apply (machine own dt mem y') y error lastError fuel with
  | none => exact fun _ => ⟨by simp, fun r h => absurd h (by simp)⟩
  | some e =>
    cases Newton.apply (single _ cell (task.settings own dt mem)) x error lastError fuel with
    | none => cases e <;> exact fun h => h.elim
    | some q =>
      obtain ⟨out, t⟩ := q
      cases e with
      | deadlock => exact fun h => h.elim
      | finished r =>
        rintro ⟨k1, -⟩
        refine ⟨by simp, fun r' h => ?_⟩
        simp only [Option.some.injEq, Ended.finished.injEq] at h
        subst h
        intro p q
        obtain ⟨a1, a2, a3, a4⟩ := k1 p
        obtain ⟨b1, b2, b3, b4⟩ := k1 q
        exact ⟨a1.trans b1.symm, a2.trans b2.symm, a3.trans b3.symm, a4.trans b4.symm⟩

/-- **C162** After a time step which converged, all processes have the values which are prescribed for its time step size for cells with
constraints, also for copies, however many attempts with other sizes failed before. -/
theorem C162_constraints_values (v : ∃ d, Valid g d) (hl : LocalTied task) (hM : PerformsTied task g cell machine) (own : X) (minDt : K)
    (cont : Bool) (n : ℕ) (st : TimeInt.St K (Fin (P + 1) → ℕ → V)) (mem : Memory K) :
    let r := tiedAttempts minDt cont (allTied (machine own) task.fuel) n st mem
    r.1 = .converged → ∀ p (i : ℕ) c, (g.cells p)[i]? = some c → ∀ old w, (task.equations own r.2.1.dt old).constraint c = some w →
      r.2.1.sol0 p i = w := by
  have hone : ∀ (dt : K) (mem : Memory K) (s old it : Fin (P + 1) → ℕ → V),
      (allTied (machine own) task.fuel dt mem s old).1 = .returned it true → ∀ p (i : ℕ) c, (g.cells p)[i]? = some c →
        ∀ o w, (task.equations own dt o).constraint c = some w → it p i = w := by
    intro dt mem s old it h p i c hc o w hw
    unfold allTied at h
    dsimp only at h
    generalize (if ∀ p, ((machine own dt mem old).env p).beginIterationOk 0 = true then
      fun p => applyConstraints ((machine own dt mem old).env p) (old p) else old) = y' at h
    obtain ⟨-, ha⟩ := C162_constraints_agree v hM own dt mem s y' mem.error mem.lastError task.fuel
    obtain ⟨d, hv⟩ := v
    classical
    obtain ⟨hs, -⟩ := hM own dt mem y' _ (own_exists hv y')
    unfold allSolver at h
    cases hap : ParNewton.apply (machine own dt mem y') s mem.error mem.lastError task.fuel with
    | none => rw [hap] at h; simp at h
    | some e =>
      rw [hap] at h ha
      cases e with
      | deadlock => simp at h
      | finished r =>
        dsimp only at h
        have hr0 : (r 0).1 = .success ∧ it = fun p => (r p).2.sol := by
          cases h0 : (r 0).1 <;> rw [h0] at h <;> simp at h
          exact ⟨rfl, h.symm⟩
        rw [hr0.2]
        refine C161_constraints hs s _ _ _ r hap p (((ha r rfl p 0).1).trans hr0.1) i c hc w ?_
        rw [← hw, hl.constraint]
  induction n generalizing st mem with
  | zero => intro r h; cases h
  | succ n ih =>
    intro r h
    have hr : r = tiedAttempts minDt cont (allTied (machine own) task.fuel) (n + 1) st mem := rfl
    clear_value r
    unfold tiedAttempts tiedUpdate at hr
    have h1 := hone st.dt mem st.sol0 st.sol1
    generalize allTied (machine own) task.fuel st.dt mem st.sol0 st.sol1 = q at hr h1
    obtain ⟨res, old, m⟩ := q
    cases res with
    | thrown it => subst hr; cases h
    | returned it b =>
      cases b with
      | true =>
        subst hr
        exact h1 it rfl
      | false =>
        dsimp only at hr
        split at hr
        · split at hr <;> (subst hr; cases h)
        · subst hr
          exact ih _ _ h

/-- **C162** Without constraints this is the simulation of `C162_simulation_partial`: nothing is written into the previous time level. -/
theorem C162_constraints_none (hn : ∀ own dt old, (task.equations own dt old).constraint = fun _ => none) (h : Hooks K (ℕ → V) X) :
    tiedOne task cell h = one task cell h := by
  have hsol : ∀ own dt mem s old, oneTied (fun dt mem old =>
      single (task.equations own dt (onCells cell fun k => old k)) cell (task.settings own dt mem)) task.fuel dt mem s old =
      ((oneSolver (fun dt mem old => single (task.equations own dt (onCells cell fun k => old k)) cell (task.settings own dt mem)) task.fuel
        dt mem s old).1, old, (oneSolver (fun dt mem old => single (task.equations own dt (onCells cell fun k => old k)) cell
          (task.settings own dt mem)) task.fuel dt mem s old).2) := by
    intro own dt mem s old
    unfold oneTied
    have e : applyConstraints (single (task.equations own dt (onCells cell fun k => old k)) cell (task.settings own dt mem)) old = old := by
      rw [applyConstraints_single]
      exact constrain_none (hn _ _ _) old
    simp only [e, ite_self]
  have hatt : ∀ own minDt cont n st mem, tiedAttempts minDt cont (oneTied (fun dt mem old =>
      single (task.equations own dt (onCells cell fun k => old k)) cell (task.settings own dt mem)) task.fuel) n st mem =
      attempts minDt cont (oneSolver (fun dt mem old => single (task.equations own dt (onCells cell fun k => old k)) cell
        (task.settings own dt mem)) task.fuel) n st mem := by
    intro own minDt cont n
    induction n with
    | zero => intro st mem; rfl
    | succ n ih =>
      intro st mem
      unfold tiedAttempts attempts tiedUpdate update
      rw [hsol]
      rcases oneSolver (fun dt mem old => single (task.equations own dt (onCells cell fun k => old k)) cell
        (task.settings own dt mem)) task.fuel st.dt mem st.sol0 st.sol1 with ⟨r, m⟩
      cases r with
      | thrown it => rfl
      | returned it b =>
        cases b with
        | true => rfl
        | false =>
          simp only
          rw [ih]
  unfold tiedOne one tiedProblem problem
  simp only [hatt]
  congr 1

open Classical in
/-- **C162** There is something to say: for any task whose equations are local, with constraints which do not depend on the solutions, and
any distribution of the grid for which the columns of the matrices are the stencils, the processes can perform the task. -/
theorem C162_constraints_exists {d : Fin (P + 1) → Overlap.Native (P + 1)} {overlapSize : ℕ} (hl : LocalTied task)
    (hE : Enumerates g cell) (v : Valid g d) (hs : 0 < overlapSize)
    (hwide : ∀ own dt mem, Wide g d overlapSize (fun p => (d p).cols) (task.settings own dt mem).solver.order)
    (hp : ∀ own dt old, Pattern (task.equations own dt old) g fun p => (d p).cols) : ∃ machine, PerformsTied task g cell machine := by
  have key : ∀ (own : X) (dt : K) (mem : Memory K) (y : Fin (P + 1) → ℕ → V), ∃ M : ParNewton.Machine P E K V,
      Started (task.equations own dt fun c => y (g.owner c) ((g.cells (g.owner c)).idxOf c)) (task.settings own dt mem) g cell M ∧
        M.cache = fun _ _ => none := fun own dt mem y =>
    C161_exists (hl.loc _ _ _) hE v hs (hwide own dt mem) (hp own dt _)
  choose machine hm using key
  refine ⟨machine, fun own dt mem y old hold => ⟨?_, (hm own dt mem y).2⟩⟩
  refine started_congr (hm own dt mem y).1 (hl.loc _ _ _) (hl.stencil _ _ _ _ _ _) fun p c hc => ?_
  have e : y (g.owner c) ((g.cells (g.owner c)).idxOf c) = old c := by
    have hmem := v.owned p c hc
    have hmem' : c ∈ g.cells (g.owner c) := hmem
    have hi := List.idxOf_lt_length_iff.2 hmem'
    exact (hold (g.owner c) _ c (by rw [List.getElem?_eq_getElem hi, List.getElem_idxOf hi]) rfl).symm
  exact ⟨hl.row _ _ _ _ _ e, hl.volume _ _ _ _ _ e, hl.weight _ _ _ _ _ e, hl.update _ _ _ _ _ e, by rw [hl.constraint]⟩

/-! ### An example -/

/-- As `decay`, but the values of the second cell are given: twice the time step size.  Its row of the linear system of equations is `u = 0`
(opm/models/discretization/common/fvbaselinearizer.hh lines 647-666). -/
def tiedDecay : Task ℕ 2 ℚ (Blk 2 ℚ) ℚ where
  equations _ dt old :=
    { rowEquations with
      row := fun c X => some (if c = 1 then 0 else (1 / dt) • (X c - old c) + ![X c 0, X c 1 - X c 0],
        fun c' => if c' = c then (if c = 1 then 1 else (1 / dt) • 1 + !![1, 0; -1, 1]) else 0)
      constraint := fun c => if c = 1 then some fun _ => 2 * dt else none }
  settings _ _ _ := rowSettings
  fuel := 20

theorem tiedDecay_local : LocalTied tiedDecay where
  loc own dt old :=
    { nodup := rowEquations_local.nodup
      self := rowEquations_local.self
      row := fun c X Y h => by
        have := h c (rowEquations_local.self c)
        simp only [tiedDecay, this] }
  stencil _ _ _ _ _ _ := rfl
  row _ _ _ _ _ h := by simp only [tiedDecay, h]
  volume _ _ _ _ _ _ := rfl
  weight _ _ _ _ _ _ := rfl
  update _ _ _ _ _ _ := rfl
  constraint _ _ _ _ := rfl

/-- Three processes with two cells each, in a row, and a constraint. -/
example (sim : Sim ℚ) (mem : Memory ℚ) (n : ℕ) : ∃ machine : ℚ → ℚ → Memory ℚ → (Fin 3 → ℕ → Blk 2 ℚ) →
    ParNewton.Machine 2 2 ℚ (Blk 2 ℚ),
    Same rowMesh.toGrid (fun k : Fin 6 => (k : ℕ))
      (run (tiedSeveral tiedDecay machine (decayHooks fun y => y 0 0 0)) n (start sim ⟨1, fun _ _ => ![1, 1], fun _ _ => ![1, 1], mem⟩))
      (run (tiedOne tiedDecay (fun k : Fin 6 => (k : ℕ)) (decayHooks fun x => x 0 0)) n (start sim ⟨1, fun _ => ![1, 1], fun _ => ![1, 1], mem⟩)) := by
  obtain ⟨machine, hM⟩ := C162_constraints_exists (task := tiedDecay) (overlapSize := 1) tiedDecay_local row_enumerates rowMesh_correct (by omega)
    (fun _ _ _ => wide_one rowMesh_correct (by decide) _) fun _ _ _ => ⟨rowEquations_pattern.nodup, rowEquations_pattern.range, rowEquations_pattern.own⟩
  have hfirst : ∀ (y : Fin 3 → ℕ → Blk 2 ℚ) (x : ℕ → Blk 2 ℚ), HaveOwn (P := 2) rowMesh.toGrid (fun k : Fin 6 => (k : ℕ)) y x → y 0 0 = x 0 :=
    fun y x h => h 0 0 0 (by decide) (by decide)
  refine ⟨machine, C162_constraints_partial row_enumerates (fun p c hc => rowMesh_correct.owned p c hc) hM ?_ sim 1 mem ?_ ?_ n⟩
  · refine ⟨?_, ?_, ?_, ?_, ?_, ?_, ?_, ?_, ?_, rfl, rfl, rfl, rfl⟩ <;> intro own y x mem sim h <;>
      simp only [decayHooks, hfirst y x h]
  · intro p i k _ _; rfl
  · intro p i k _ _; rfl

end Verif.ParSim
