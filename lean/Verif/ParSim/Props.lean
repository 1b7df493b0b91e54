import Verif.ParSim.Lemmas

/-
Theorems about whole simulations on several processes.
-/

set_option autoImplicit false
set_option linter.unusedSectionVars false

namespace Verif.ParSim

open Verif.Mpi Verif.TimeLoop Verif.Newton Verif.ParNewton Verif.ParSolve.Block Verif.Overlap
open Verif.ParSolve (Enumerates Wide Steps Covered mem_all steps_mem wide_one row_enumerates)

variable {P N E : ℕ} {G K V X : Type} [Field K] [LinearOrder K] [IsStrictOrderedRing K] [Inhabited V]
variable {g : Grid (P + 1) G} {cell : Fin N → G} {task : Task G E K V X}
  {machine : X → K → Memory K → (Fin (P + 1) → ℕ → V) → ParNewton.Machine P E K V}

/-- **C162** A whole simulation on several processes is the one on a single process which has the whole grid.  However the cells are
distributed and whatever the schedules of messages are: after any number of steps of the time loop the processes are at the same point as
the single process, with the same time, time step size and episode, after the same history of time steps, callbacks and chopped time
steps, with the same state of the problem and of the Newton method, and they have the same values of their own cells on both time levels.
At first copies can have any values. -/
theorem C162_simulation_partial (hE : Enumerates g cell) (hO : ∀ p, ∀ c ∈ g.cells p, c ∈ g.all) (hM : Performs task g cell machine)
    {h : Hooks K (Fin (P + 1) → ℕ → V) X} {h1 : Hooks K (ℕ → V) X} (hh : SameHooks g cell h h1) (sim : Sim K) (own : X) (mem : Memory K)
    {y0 y1 : Fin (P + 1) → ℕ → V} {x0 x1 : ℕ → V} (e0 : HaveOwn g cell y0 x0) (e1 : HaveOwn g cell y1 x1) (n : ℕ) :
    Same g cell (run (several task machine h) n (start sim ⟨own, y0, y1, mem⟩)) (run (one task cell h1) n (start sim ⟨own, x0, x1, mem⟩)) := by
  have : AlikeConf (SameSt g cell) (start sim (⟨own, y0, y1, mem⟩ : St K (Fin (P + 1) → ℕ → V) X))
      (start sim (⟨own, x0, x1, mem⟩ : St K (ℕ → V) X)) := ⟨rfl, rfl, rfl, rfl, rfl, rfl, e0, e1⟩
  obtain ⟨a1, a2, a3, a4, a5, a6, a7, a8⟩ := run_alike (problem_alike hE hO hM hh) n this
  exact ⟨a1, a2, a3, a4, a5, a6, a7, a8⟩

/-- **C162** No process ever waits for others in vain, and all processes get the same answers from their Newton methods, so that all take
the same way through the time loop: whatever values they have for their cells and their copies, and for those of the previous time
level. -/
theorem C162_agree (v : ∃ d, Valid g d) (hE : Enumerates g cell) (hM : Performs task g cell machine) (own : X) (dt : K) (mem : Memory K)
    (y y' : Fin (P + 1) → ℕ → V) (error lastError : Fl K) (fuel : ℕ) :
    ParNewton.apply (machine own dt mem y') y error lastError fuel ≠ some .deadlock ∧
    ∀ r, ParNewton.apply (machine own dt mem y') y error lastError fuel = some (.finished r) → ∀ p q,
      (r p).1 = (r q).1 ∧ (r p).2.error = (r q).2.error ∧ (r p).2.lastError = (r q).2.lastError ∧
        (r p).2.iterations = (r q).2.iterations := by
  obtain ⟨d, v⟩ := v
  classical
  let x : ℕ → V := fun k => if hk : k < N then
    y (g.owner (cell ⟨k, hk⟩)) ((g.cells (g.owner (cell ⟨k, hk⟩))).idxOf (cell ⟨k, hk⟩)) else default
  have hx : HaveOwn g cell y x := by
    intro p i k hk ho
    simp only [x, dif_pos k.2]
    rw [ho]
    obtain ⟨hi, he⟩ := List.getElem?_eq_some_iff.1 hk
    have e := (v.nodup p).idxOf_getElem i hi
    rw [he] at e
    rw [e]
  have hold : Own g y' fun c => y' (g.owner c) ((g.cells (g.owner c)).idxOf c) := by
    intro p i c hc ho
    obtain ⟨hi, he⟩ := List.getElem?_eq_some_iff.1 hc
    have e := (v.nodup p).idxOf_getElem i hi
    rw [he] at e
    simp only [ho, e]
  obtain ⟨hs, hc, hn⟩ := hM own dt mem y' _ hold
  have hfresh : Fresh g cell (machine own dt mem y').cache x := by
    intro p i k _ w hw
    rw [hc] at hw
    exact absurd hw (by simp)
  rw [← constrain_none (cell := cell) hn x] at hfresh
  have := C161_newton_partial hs hx hfresh error lastError fuel
  revert this
  cases ParNewton.apply (machine own dt mem y') y error lastError fuel with
  | none => exact fun _ => ⟨by simp, fun r h => absurd h (by simp)⟩
  | some e =>
    cases Newton.apply (single _ cell (task.settings own dt mem)) x error lastError fuel with
    | none => cases e <;> exact fun h => h.elim
    | some q =>
      obtain ⟨out, t⟩ := q
      cases e with
      | deadlock => exact fun h => h.elim
      | finished r =>
        rintro ⟨k1, -⟩
        refine ⟨by simp, fun r' h => ?_⟩
        simp only [Option.some.injEq, Ended.finished.injEq] at h
        subst h
        intro p q
        obtain ⟨a1, a2, a3, a4⟩ := k1 p
        obtain ⟨b1, b2, b3, b4⟩ := k1 q
        exact ⟨a1.trans b1.symm, a2.trans b2.symm, a3.trans b3.symm, a4.trans b4.symm⟩

/-- **C162** Two distributions of the same grid, also with different numbers of processes: the simulations take the same time steps, call
the same callbacks, and have the same values of all cells after any number of steps. -/
theorem C162_distributions {P' : ℕ} {g' : Grid (P' + 1) G} {machine' : X → K → Memory K → (Fin (P' + 1) → ℕ → V) → ParNewton.Machine P' E K V}
    (hE : Enumerates g cell) (hO : ∀ p, ∀ c ∈ g.cells p, c ∈ g.all) (hM : Performs task g cell machine)
    (hE' : Enumerates g' cell) (hO' : ∀ p, ∀ c ∈ g'.cells p, c ∈ g'.all) (hM' : Performs task g' cell machine')
    {h : Hooks K (Fin (P + 1) → ℕ → V) X} {h' : Hooks K (Fin (P' + 1) → ℕ → V) X} {h1 : Hooks K (ℕ → V) X} (hh : SameHooks g cell h h1)
    (hh' : SameHooks g' cell h' h1) (sim : Sim K) (own : X) (mem : Memory K) {y0 y1 : Fin (P + 1) → ℕ → V} {y0' y1' : Fin (P' + 1) → ℕ → V}
    {x0 x1 : ℕ → V} (e0 : HaveOwn g cell y0 x0) (e1 : HaveOwn g cell y1 x1) (e0' : HaveOwn g' cell y0' x0) (e1' : HaveOwn g' cell y1' x1)
    (n : ℕ) :
    let c := run (several task machine h) n (start sim ⟨own, y0, y1, mem⟩)
    let c' := run (several task machine' h') n (start sim ⟨own, y0', y1', mem⟩)
    c.pc = c'.pc ∧ c.sim = c'.sim ∧ c.trace = c'.trace ∧ c.prob.own = c'.prob.own ∧ c.prob.memory = c'.prob.memory ∧
      ∀ p p' (i i' : ℕ) (k : Fin N), (g.cells p)[i]? = some (cell k) → g.owner (cell k) = p → (g'.cells p')[i']? = some (cell k) →
        g'.owner (cell k) = p' → c.prob.sol0 p i = c'.prob.sol0 p' i' := by
  have a := C162_simulation_partial hE hO hM hh sim own mem e0 e1 n
  have b := C162_simulation_partial hE' hO' hM' hh' sim own mem e0' e1' n
  refine ⟨a.pc.trans b.pc.symm, a.sim.trans b.sim.symm, a.trace.trans b.trace.symm, a.own.trans b.own.symm,
    a.memory.trans b.memory.symm, fun p p' i i' k hi ho hi' ho' => ?_⟩
  exact (a.sol0 p i k hi ho).trans (b.sol0 p' i' k hi' ho').symm

/-! ### The hypotheses are met -/

theorem started_congr {eqs eqs' : Equations G E K V} {set : Settings K} {M : ParNewton.Machine P E K V} (h : Started eqs set g cell M)
    (hl : Local eqs') (hst : eqs.stencil = eqs'.stencil)
    (hall : ∀ p, ∀ c ∈ g.cells p, eqs.row c = eqs'.row c ∧ eqs.volume c = eqs'.volume c ∧ eqs.weight c = eqs'.weight c ∧
      eqs.update c = eqs'.update c ∧ eqs.constraint c = eqs'.constraint c) : Started eqs' set g cell M := by
  obtain ⟨-, hE, d, overlapSize, face, anyIdx, s, v, hs, hw, hp, hg, hr, hf, hR⟩ := h
  refine ⟨hl, hE, d, overlapSize, face, anyIdx, s, v, hs, hw, ⟨hp.nodup, hp.range, ?_⟩, hg, hr, hf, ?_⟩
  · rw [← hst]; exact hp.own
  · exact
      { hR with
        volume := fun p i c hc => (hR.volume p i c hc).trans (hall p c (List.mem_of_getElem? hc)).2.1
        weight := fun p i c hc j => (hR.weight p i c hc j).trans (congrFun (hall p c (List.mem_of_getElem? hc)).2.2.1 j)
        update := fun p i c hc w u => by
          rw [← (hall p c (List.mem_of_getElem? hc)).2.2.2.1]; exact hR.update p i c hc w u
        constraints := fun p i c hc => (hR.constraints p i c hc).trans (hall p c (List.mem_of_getElem? hc)).2.2.2.2
        linearized := fun n p x a b h => by
          obtain ⟨k1, k2, k3⟩ := hR.linearized n p x a b h
          refine ⟨k1, k2, fun i c hc ho => ?_⟩
          rw [← (hall p c (List.mem_of_getElem? hc)).1]
          exact k3 i c hc ho
        failed := fun n p x h => by
          obtain ⟨c, hc, hn⟩ := hR.failed n p x h
          refine ⟨c, hc, ?_⟩
          rw [← (hall p c hc).1]
          exact hn }

open Classical in
/-- **C162** There is something to say: for any task whose equations are local and any distribution of the grid for which the columns of
the matrices are the stencils, the processes can perform the task. -/
theorem C162_exists {d : Fin (P + 1) → Overlap.Native (P + 1)} {overlapSize : ℕ} (hl : LocalTask task)
    (hE : Enumerates g cell) (v : Valid g d) (hs : 0 < overlapSize)
    (hwide : ∀ own dt mem, Wide g d overlapSize (fun p => (d p).cols) (task.settings own dt mem).solver.order)
    (hp : ∀ own dt old, Pattern (task.equations own dt old) g fun p => (d p).cols) : ∃ machine, Performs task g cell machine := by
  have key : ∀ (own : X) (dt : K) (mem : Memory K) (y : Fin (P + 1) → ℕ → V), ∃ M : ParNewton.Machine P E K V,
      Started (task.equations own dt fun c => y (g.owner c) ((g.cells (g.owner c)).idxOf c)) (task.settings own dt mem) g cell M ∧
        M.cache = fun _ _ => none := fun own dt mem y =>
    C161_exists (hl.loc _ _ _) hE v hs (hwide own dt mem) (hp own dt _)
  choose machine hm using key
  refine ⟨machine, fun own dt mem y old hold => ⟨?_, (hm own dt mem y).2, hl.constraint _ _ _⟩⟩
  refine started_congr (hm own dt mem y).1 (hl.loc _ _ _) (hl.stencil _ _ _ _ _ _) fun p c hc => ?_
  have e : y (g.owner c) ((g.cells (g.owner c)).idxOf c) = old c := by
    have hmem := v.owned p c hc
    have hmem' : c ∈ g.cells (g.owner c) := hmem
    have hi := List.idxOf_lt_length_iff.2 hmem'
    exact (hold (g.owner c) _ c (by rw [List.getElem?_eq_getElem hi, List.getElem_idxOf hi]) rfl).symm
  exact ⟨hl.row _ _ _ _ _ e, hl.volume _ _ _ _ _ e, hl.weight _ _ _ _ _ e, hl.update _ _ _ _ _ e, by rw [hl.constraint, hl.constraint]⟩

/-- The implicit Euler method for `u' = -u` and `v' = u - v` in all cells of the row of cells of `rowMesh` -/
def decay : Task ℕ 2 ℚ (Blk 2 ℚ) ℚ where
  equations _ dt old :=
    { rowEquations with row := fun c X => some ((1 / dt) • (X c - old c) + ![X c 0, X c 1 - X c 0],
      fun c' => if c' = c then (1 / dt) • 1 + !![1, 0; -1, 1] else 0) }
  settings _ _ _ := rowSettings
  fuel := 20

theorem decay_local : LocalTask decay where
  loc own dt old :=
    { nodup := rowEquations_local.nodup
      self := rowEquations_local.self
      row := fun c X Y h => by
        have := h c (rowEquations_local.self c)
        simp only [decay, this] }
  stencil _ _ _ _ _ _ := rfl
  row _ _ _ _ _ h := by simp only [decay, h]
  volume _ _ _ _ _ _ := rfl
  weight _ _ _ _ _ _ := rfl
  update _ _ _ _ _ _ := rfl

/-- A problem which remembers the value of the first cell at the end of time steps, and adapts its time steps to the Newton method -/
def decayHooks {S : Type} (first : S → ℚ) : Hooks ℚ S ℚ where
  beginEpisode own _ _ _ := some (own, [])
  endEpisode own _ _ sim := some (own, [.startNextEpisode sim.episodeLength])
  beginTimeStep own _ _ _ := some (own, [])
  endTimeStep _ s _ sim := some (first s, if 10 ≤ sim.time then [.setFinished true] else [])
  writeOutput own _ _ _ := some (own, [])
  advanceTimeLevel own _ _ _ := some (own, [])
  writeRestart own _ _ _ := some (own, [])
  finalize own _ _ _ := some (own, [])
  nextTimeStepSize own _ mem sim := if mem.iterations ≤ 5 then sim.dt * (1 + own / 10) else sim.dt / 2
  forcedTimeSteps := []
  maxFails := 10
  minDt := 1 / 100
  continueOnError := false

/-- Three processes with two cells each, in a row: their simulation is the one on a single process. -/
example (sim : Sim ℚ) (mem : Memory ℚ) (n : ℕ) : ∃ machine : ℚ → ℚ → Memory ℚ → (Fin 3 → ℕ → Blk 2 ℚ) →
    ParNewton.Machine 2 2 ℚ (Blk 2 ℚ),
    Same rowMesh.toGrid (fun k : Fin 6 => (k : ℕ))
      (run (several decay machine (decayHooks fun y => y 0 0 0)) n (start sim ⟨1, fun p i => ![((rowMesh.cells p)[i]?).getD 0, 1], fun p i => ![((rowMesh.cells p)[i]?).getD 0, 1], mem⟩))
      (run (one decay (fun k : Fin 6 => (k : ℕ)) (decayHooks fun x => x 0 0)) n (start sim ⟨1, fun k => ![k, 1], fun k => ![k, 1], mem⟩)) := by
  obtain ⟨machine, hM⟩ := C162_exists (task := decay) (overlapSize := 1) decay_local row_enumerates rowMesh_correct (by omega)
    (fun _ _ _ => wide_one rowMesh_correct (by decide) _) fun _ _ _ => ⟨rowEquations_pattern.nodup, rowEquations_pattern.range, rowEquations_pattern.own⟩
  have hfirst : ∀ (y : Fin 3 → ℕ → Blk 2 ℚ) (x : ℕ → Blk 2 ℚ), HaveOwn (P := 2) rowMesh.toGrid (fun k : Fin 6 => (k : ℕ)) y x → y 0 0 = x 0 :=
    fun y x h => h 0 0 0 (by decide) (by decide)
  refine ⟨machine, C162_simulation_partial row_enumerates (fun p c hc => rowMesh_correct.owned p c hc) hM ?_ sim 1 mem ?_ ?_ n⟩
  · refine ⟨?_, ?_, ?_, ?_, ?_, ?_, ?_, ?_, ?_, rfl, rfl, rfl, rfl⟩ <;> intro own y x mem sim h <;>
      simp only [decayHooks, hfirst y x h]
  · intro p i k hk _
    simp only
    rw [show (rowMesh.cells p)[i]? = some (k : ℕ) from hk]
    rfl
  · intro p i k hk _
    simp only
    rw [show (rowMesh.cells p)[i]? = some (k : ℕ) from hk]
    rfl

end Verif.ParSim
