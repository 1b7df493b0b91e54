import Verif.ParRestart.Files
import Verif.ParRestart.Lemmas
import Verif.RestartSim.Props
import Verif.ParRestart.Hasty
import Verif.ParCache.Props

/-
C183: a simulation on several processes which is restarted from the files of its processes continues like the uninterrupted one.
-/

set_option autoImplicit false
set_option linter.unusedSectionVars false

namespace Verif.ParRestart

open Verif.TimeLoop Verif.ParSim Verif.ParNewton Verif.Overlap Verif.Newton Verif.Restart Verif.Names
open Verif.ParSolve (Enumerates row_enumerates wide_one)

/-- **C183** (names) Different processes have different files, and so have times which are written differently. -/
theorem C183_names {P : ℕ} {K : Type} (y : Setup P K) (t t' : K) (ht : '_' ∉ y.time t) (ht' : '_' ∉ y.time t') (p q : Fin (P + 1)) :
    y.name t p = y.name t' q ↔ y.time t = y.time t' ∧ p = q := by
  constructor
  · intro h
    obtain ⟨h1, h2⟩ := fileName_inj ht ht' h
    exact ⟨h1, Fin.ext h2⟩
  · rintro ⟨h1, rfl⟩
    unfold Setup.name
    rw [h1]

/-- **C183** (another distribution) A process rejects a file which was written by a process of a simulation with another number of
processes, by a process of another rank, or by one with other numbers of elements, edges or vertices. -/
theorem C183_rejected {P P' m : ℕ} {K : Type} [Field K] [LinearOrder K] (y : Setup P K) (y' : Setup P' K) (p : Fin (P + 1)) (p' : Fin (P' + 1))
    (hne : P ≠ P' ∨ p.val ≠ p'.val ∨ y.numElements p ≠ y'.numElements p' ∨ y.numEdges p ≠ y'.numEdges p' ∨
      y.numVertices p ≠ y'.numVertices p')
    (clock : Clock K) (s : List (List K)) (t : K) (disk : Disk)
    (hf : disk (y'.name t p') = some (writeFile y.integer y.number (y.cookie p) c!"Entities: Codim 0" clock s)) (fresh : Sim K)
    (z : ℕ → Fin m → K) : readOne y' disk t fresh z p' = .error .section := by
  have hc : y.cookie p ≠ y'.cookie p' := by
    intro h
    obtain ⟨h1, h2, h3, h4, h5⟩ := magicCookie_inj h
    omega
  unfold readOne
  rw [hf]
  have e : writeFile y.integer y.number (y.cookie p) c!"Entities: Codim 0" clock s = y.cookie p ++ '\n' :: ((writeFile y.integer y.number
      (y.cookie p) c!"Entities: Codim 0" clock s).drop ((y.cookie p).length + 1)) := by
    simp [writeFile, sectionBegin]
  rw [e]
  exact (C58_wrong_cookie_rejected _ _ _ _ _ _ _ _ (magicCookie_line _ _ _ _ _) hc).2.2

section
variable {P N E m : ℕ} {G K X : Type} [Field K] [LinearOrder K] [IsStrictOrderedRing K] [Inhabited K]
variable {g : Grid (P + 1) G} {cell : Fin N → G} {task : Task G E K (Fin m → K) X}
  {machine machine' : X → K → Memory K → (Fin (P + 1) → ℕ → Fin m → K) → ParNewton.Machine P E K (Fin m → K)}

/-- **C183** (files) In whatever order the processes write their files, and whatever was in the directory before: each process of the new
simulation reads the clock and its part of the solution, also the values of copies, from its file; no process throws an exception; files with
other names are not touched. -/
theorem C183_files (y : Setup P K) (hI : y.integer.Lawful) (hK : y.number.Lawful) (c : Conf K (ParSim.St K (Fin (P + 1) → ℕ → Fin m → K) X))
    (disk : Disk) (order : List (Fin (P + 1))) (hall : ∀ p, p ∈ order) (fresh : Sim K) (own : X) (mem : Memory K)
    (s : Fin (P + 1) → ℕ → Fin m → K) :
    (∃ r, restartAll y (writeAll y c disk order) c.sim.time fresh own mem s = some r ∧ save r.sim = save c.sim ∧ r.prob.own = own ∧
      r.prob.sol1 = r.prob.sol0 ∧ r.prob.memory = mem ∧ ∀ p i, i < y.numElements p → r.prob.sol0 p i = c.prob.sol0 p i) ∧
    ∀ name, (∀ p, name ≠ y.name c.sim.time p) → writeAll y c disk order name = disk name := by
  obtain ⟨z, hz, hr⟩ := restartAll_ok y hI hK c disk order hall fresh own mem s
  exact ⟨⟨_, hr, rfl, rfl, rfl, rfl, hz⟩, fun name hn => writeAll_other y c hn order disk⟩

/-- **C183** (all or none) If the file of one process is missing or is rejected, no process continues. -/
theorem C183_none (y : Setup P K) (disk : Disk) (t : K) (fresh : Sim K) (own : X) (mem : Memory K) (s : Fin (P + 1) → ℕ → Fin m → K)
    (p : Fin (P + 1)) (h : disk (y.name t p) = none ∨ ∃ line rest, '\n' ∉ line ∧ line ≠ y.cookie p ∧ disk (y.name t p) = some (line ++ '\n' :: rest)) :
    restartAll y disk t fresh own mem s = none := by
  have hp : (readOne y disk t fresh (s p) p).isOk = false := by
    unfold readOne
    rcases h with h | ⟨line, rest, h1, h2, h⟩
    · rw [h]; rfl
    · rw [h, (C58_wrong_cookie_rejected _ _ _ _ _ _ _ _ h1 h2).2.2]; rfl
  unfold restartAll
  rw [if_neg]
  intro hall
  rw [hall p] at hp
  exact absurd hp (by decide)

/-- **C183** (partial) A simulation on several processes begins with any solution and writes restart files after any number of time steps,
retries and episodes, each process its own, in any order.  New processes with the same distribution of the grid read the files; their
schedules of messages may be other ones, and their Newton methods and solution vectors are new.  From there on they do what the first ones
would have done: after any number of steps of the time loop they are at the same place, with the same clock and the same state of the
problem, have shown the same events, and have the same values of their own cells at both time levels.  Assumed, because the library does not
ensure it (`C183_memory_violated`, `C166_size_violated`, `C166_episode_violated`): the Newton method may do two iterations, the new
processes begin with the time step size of the saved ones, and no episode ended right before the files were written; and, of the problem: it
restores its state, does not look at the Newton method except for its number of iterations, and writing the restart file does not change
it. -/
theorem C183_continues_partial (hE : Enumerates g cell) (hO : ∀ p, ∀ c ∈ g.cells p, c ∈ g.all) (hM : Performs task g cell machine)
    (hM' : Performs task g cell machine') {h : Hooks K (Fin (P + 1) → ℕ → Fin m → K) X} {h1 : Hooks K (ℕ → Fin m → K) X}
    (hh : SameHooks g cell h h1) (hf : Forgetful h) (ht : Patient task)
    (y : Setup P K) (hI : y.integer.Lawful) (hK : y.number.Lawful) (hsize : ∀ p, y.numElements p = (g.cells p).length)
    (sim fresh : Sim K) (hidx : 0 ≤ sim.timeStepIdx) (own : X) (mem mem' : Memory K) {y0 : Fin (P + 1) → ℕ → Fin m → K} {x0 : ℕ → Fin m → K}
    (e0 : HaveOwn g cell y0 x0) (s : Fin (P + 1) → ℕ → Fin m → K) (n : ℕ) (disk : Disk) (order : List (Fin (P + 1))) (hall : ∀ p, p ∈ order) :
    let c := run (several task machine h) n (start sim ⟨own, y0, y0, mem⟩)
    c.pc = .restart → h.writeRestart c.prob.own c.prob.sol0 c.prob.memory c.sim = some (c.prob.own, []) →
    c.trace.getLast? ≠ some .endEpisode →
    fresh.endTime = c.sim.endTime → fresh.finishedFlag = c.sim.finishedFlag → fresh.dt = c.sim.dt →
    ∃ r, restartAll y (writeAll y c disk order) c.sim.time fresh c.prob.own mem' s = some r ∧
      ∀ k,
        let a := run (several task machine h) (n + 1 + k) (start sim ⟨own, y0, y0, mem⟩)
        let b := run (several task machine' h) k r
        a.pc = b.pc ∧ a.sim = b.sim ∧ a.prob.own = b.prob.own ∧ a.trace = c.trace ++ b.trace ∧
          OwnAlike g a.prob.sol0 b.prob.sol0 ∧ OwnAlike g a.prob.sol1 b.prob.sol1 := by
  intro c hpc hw hlast hend hfin hdt
  have hA := fun n => C162_simulation_partial hE hO hM hh sim own mem e0 e0 n
  have hc : Same g cell c (run (one task cell h1) n (start sim ⟨own, x0, x0, mem⟩)) := hA n
  have hl1 : (run (one task cell h1) n (start sim ⟨own, x0, x0, mem⟩)).pc = .restart →
      (run (one task cell h1) n (start sim ⟨own, x0, x0, mem⟩)).prob.sol0 = (run (one task cell h1) n (start sim ⟨own, x0, x0, mem⟩)).prob.sol1 := by
    intro hpc
    rcases ParBalance.run_level (h := h1) (solver := fun own => oneSolver (fun dt mem old =>
      single (task.equations own dt (onCells cell fun k => old k)) cell (task.settings own dt mem)) task.fuel) sim own mem x0 n with
      h' | h' | h' | h' | h' | h'
    all_goals first | exact h' | exact absurd (hpc.symm.trans h') (by decide)
  have hmid := (RestartSim.mid_run (one task cell h1) sim ⟨own, x0, x0, mem⟩ n)
  have hst := RestartSim.stepped_run (one task cell h1) sim ⟨own, x0, x0, mem⟩ n
  have hclock := (C17_clock (one task cell h1) sim ⟨own, x0, x0, mem⟩ n).2
  have hrun : ∀ k, run (one task cell h1) (n + 1 + k) (start sim ⟨own, x0, x0, mem⟩) =
      run (one task cell h1) k (step (one task cell h1) (run (one task cell h1) n (start sim ⟨own, x0, x0, mem⟩))) := by
    intro k
    rw [← TimeLoop.run_succ]
    unfold run
    rw [Nat.add_comm (n + 1) k, Function.iterate_add_apply]
  generalize run (one task cell h1) n (start sim ⟨own, x0, x0, mem⟩) = c1 at hc hl1 hmid hst hclock hrun
  have hpc1 : c1.pc = .restart := hc.pc ▸ hpc
  have hl := hl1 hpc1
  have hw1 : h1.writeRestart c1.prob.own c1.prob.sol0 c1.prob.memory c1.sim = some (c1.prob.own, []) := by
    rw [← hh.writeRestart _ _ _ _ _ hc.sol0, ← hc.own, ← hc.memory, ← hc.sim]
    exact hw
  have hq : restore (save c1.sim) fresh = c1.sim :=
    (C20_queries_agree c1.sim fresh).2.2.2 (by rw [hend, hc.sim]) (by rw [hdt, hc.sim]) (by rw [hfin, hc.sim])
  obtain ⟨m1, m2⟩ := (hmid.restart hpc1).resolve_left (by rw [← hc.trace]; exact hlast)
  have hi : c1.sim.timeStepIdx ≠ 0 := by
    have hp := List.length_pos_of_ne_nil (hst (.inr (.inr hpc1)))
    omega
  have hstep : step (one task cell h1) c1 = { restarted (save c1.sim) fresh c1.prob with
      trace := c1.trace ++ (restarted (save c1.sim) fresh c1.prob).trace } := by
    have hw' : (one task cell h1).writeRestart c1.prob c1.sim = some (c1.prob, []) := by
      simp only [one, problem, lift, hw1, Option.map_some]
    unfold restarted start
    rw [hq, m2]
    simp only [step, hpc1, call, hw', List.foldl_nil, m1, List.append_nil]
    simp [hi]
  obtain ⟨z, hz, hr⟩ := restartAll_ok y hI hK c disk order hall fresh c.prob.own mem' s
  refine ⟨_, hr, fun k => ?_⟩
  have hz0 : HaveOwn g cell z c1.prob.sol0 := by
    intro p i j hj ho
    rw [hz p i (by rw [hsize]; exact (List.getElem?_eq_some_iff.1 hj).1)]
    exact hc.sol0 p i j hj ho
  have hb := C162_simulation_partial hE hO hM' hh (restore (save c1.sim) fresh) c1.prob.own mem' hz0 hz0 k
  have ha := hA (n + 1 + k)
  rw [hrun k, hstep, run_prefix] at ha
  have hF : Forgot (restarted (save c1.sim) fresh c1.prob) (start (restore (save c1.sim) fresh)
      (⟨c1.prob.own, c1.prob.sol0, c1.prob.sol0, mem'⟩ : ParSim.St K (ℕ → Fin m → K) X)) := by
    refine ⟨mem', ?_, by simp [restarted, start]⟩
    unfold restarted start
    generalize c1.prob = pr at hl
    obtain ⟨x, a, b, d⟩ := pr
    simp only at hl
    rw [hl]
  obtain ⟨m', hk, -⟩ := run_forgot (fun own => one_steady ht cell own) (forgetful_one hE hh hf) k hF
  have hbr : run (several task machine' h) k (restarted (save c.sim) fresh ⟨c.prob.own, z, z, mem'⟩) =
      run (several task machine' h) k (start (restore (save c1.sim) fresh) ⟨c1.prob.own, z, z, mem'⟩) := by
    unfold restarted
    rw [hc.sim, hc.own]
  intro a b
  have hb' : Same g cell b (run (one task cell h1) k (start (restore (save c1.sim) fresh) ⟨c1.prob.own, c1.prob.sol0, c1.prob.sol0, mem'⟩)) := by
    change Same g cell (run _ _ _) _
    rw [hbr]
    exact hb
  rw [show run (one task cell h1) k (start (restore (save c1.sim) fresh) ⟨c1.prob.own, c1.prob.sol0, c1.prob.sol0, mem'⟩) = _ from hk] at hb'
  have own' : ∀ {u v : Fin (P + 1) → ℕ → Fin m → K} {x : ℕ → Fin m → K}, HaveOwn g cell u x → HaveOwn g cell v x → OwnAlike g u v := by
    intro u v x hu hv p i d hd ho
    obtain ⟨j, rfl⟩ := (hE.2 d).1 (hO p d (List.mem_of_getElem? hd))
    exact (hu p i j hd ho).trans (hv p i j hd ho).symm
  refine ⟨ha.pc.trans hb'.pc.symm, ha.sim.trans hb'.sim.symm, ha.own.trans hb'.own.symm, ?_, own' ha.sol0 hb'.sol0, own' ha.sol1 hb'.sol1⟩
  rw [ha.trace, hb'.trace, hc.trace]
  rfl

end

/-! ### A row of cells on three processes -/

open Verif.ParCache Verif.ParSolve.Block

/-- Rational numbers are written by their numbers in an enumeration; the processes have as many elements as cells. -/
def rowSetup : Setup 2 ℚ where
  integer := intFormat
  number := RestartSim.ratFormat
  time t := intFormat.fmt t.num
  outputDir := c!"results"
  simName := c!"row"
  numElements p := (rowMesh.toGrid.cells p).length
  numEdges _ := 0
  numVertices p := (rowMesh.toGrid.cells p).length + 1

/-- What a Newton method has at the beginning (opm/models/nonlinear/newtonmethod.hh lines 119-120) -/
def newMemory (calls : ℕ) : Memory ℚ := ⟨.num (10 ^ 100), .num (10 ^ 100), 0, calls⟩

theorem idle_forgetful {S : Type} : Forgetful (idleHooks (S := S)) :=
  ⟨fun _ _ _ _ _ => rfl, fun _ _ _ _ _ => rfl, fun _ _ _ _ _ => rfl, fun _ _ _ _ _ => rfl, fun _ _ _ _ _ => rfl, fun _ _ _ _ _ => rfl,
    fun _ _ _ _ _ => rfl, fun _ _ _ _ _ => rfl, fun _ _ _ _ _ _ => rfl⟩

theorem row_restart {task : Task ℕ 2 ℚ (Blk 2 ℚ) Unit} {machine : Machines} (hM : Performs task rowMesh.toGrid six machine)
    {m m' : Memory ℚ} {z : ℕ → Blk 2 ℚ} (h : oneSolver (fun dt mem old => single (task.equations () dt (onCells six fun k => old k)) six
      (task.settings () dt mem)) task.fuel 1 m (fun _ => 1) (fun _ => 1) = (.returned z true, m')) :
    let c := run (several task machine idleHooks) 8 (start tenSteps ⟨(), fun _ _ => 1, fun _ _ => 1, m⟩)
    c.pc = .restart ∧ c.trace.getLast? ≠ some .endEpisode ∧ c.sim = nineSteps ∧ HaveOwn rowMesh.toGrid six c.prob.sol0 z := by
  have hall : HaveAll (P := 2) rowMesh.toGrid six (fun _ _ => (1 : Blk 2 ℚ)) fun _ => 1 := fun _ _ _ _ => rfl
  have a := C162_simulation_partial row_enumerates row_owned hM idle_same tenSteps () m (haveOwn_of_all hall) (haveOwn_of_all hall) 8
  have b : run (one task six idleHooks) 8 (start tenSteps ⟨(), fun _ => 1, fun _ => 1, m⟩) = _ := first_restart _ _ z m m' h
  intro c
  rw [b] at a
  refine ⟨a.pc, ?_, a.sim, a.sol0⟩
  rw [a.trace]
  simp

theorem row_performs {task : Task ℕ 2 ℚ (Blk 2 ℚ) Unit} (hl : LocalTask task) (hs : ∀ own dt old, (task.equations own dt old).stencil = rowEquations.stencil)
    (ho : ∀ own dt mem, (task.settings own dt mem).solver.order = 1) : ∃ machine : Machines, Performs task rowMesh.toGrid six machine := by
  refine C162_exists (task := task) (overlapSize := 1) hl row_enumerates rowMesh_correct (by omega)
    (fun own dt mem => by rw [ho]; exact wide_one rowMesh_correct (by decide) _) (fun own dt old => ⟨rowEquations_pattern.nodup, rowEquations_pattern.range, ?_⟩)
  rw [hs]
  exact rowEquations_pattern.own

/-- Three processes with two cells each, in a row, write restart files after the first time step, the last process first; new processes do
the second time step like the first ones. -/
example (mem mem' : Memory ℚ) (s : Fin 3 → ℕ → Blk 2 ℚ) (disk : Disk) : ∃ machine : Machines, Performs fineSinking rowMesh.toGrid six machine ∧
    ∃ r, restartAll rowSetup (writeAll rowSetup (run (several fineSinking machine idleHooks) 8
        (start tenSteps ⟨(), fun _ _ => 1, fun _ _ => 1, mem⟩)) disk [2, 0, 1]) 1 nineSteps () mem' s = some r ∧
      (run (several fineSinking machine idleHooks) 3 r).pc = .endStep ∧
        OwnAlike rowMesh.toGrid (run (several fineSinking machine idleHooks) 12 (start tenSteps ⟨(), fun _ _ => 1, fun _ _ => 1, mem⟩)).prob.sol0
          (run (several fineSinking machine idleHooks) 3 r).prob.sol0 := by
  obtain ⟨machine, hM⟩ := row_performs (task := fineSinking)
    ⟨sinking_local.loc, sinking_local.stencil, sinking_local.row, sinking_local.volume, sinking_local.weight, sinking_local.update, sinking_local.constraint⟩
    (fun _ _ _ => rfl) fun _ _ _ => rfl
  obtain ⟨t, ht, hi, hsol⟩ := fine_single 1 (fun _ => 1) (fun _ => 1) (fun _ => rfl) (fun _ => rfl) mem.error mem.lastError
  obtain ⟨t', ht', hi', -⟩ := fine_single (1 - 1) t.sol t.sol hsol hsol t.error t.lastError
  have k1 : oneSolver (fun dt mem old => single (fineSinking.equations () dt (onCells six fun k => old k)) six (fineSinking.settings () dt mem))
      fineSinking.fuel 1 mem (fun _ => 1) (fun _ => 1) = (.returned t.sol true, ⟨t.error, t.lastError, t.iterations, mem.calls + 1⟩) := by
    simp only [oneSolver, fineSinking, sinking, ht]
  have k2 : oneSolver (fun dt mem old => single (fineSinking.equations () dt (onCells six fun k => old k)) six (fineSinking.settings () dt mem))
      fineSinking.fuel 1 ⟨t.error, t.lastError, t.iterations, mem.calls + 1⟩ t.sol t.sol =
        (.returned t'.sol true, ⟨t'.error, t'.lastError, t'.iterations, mem.calls + 1 + 1⟩) := by
    simp only [oneSolver, fineSinking, sinking, ht']
  obtain ⟨hpc, hlast, hsim, -⟩ := row_restart hM k1
  have hall : HaveAll (P := 2) rowMesh.toGrid six (fun _ _ => (1 : Blk 2 ℚ)) fun _ => 1 := fun _ _ _ _ => rfl
  obtain ⟨r, hr, hk⟩ := C183_continues_partial row_enumerates row_owned hM hM idle_same idle_forgetful
    ⟨fun _ _ _ _ => rfl, fun _ _ _ => show 2 ≤ 10 by decide⟩ rowSetup intFormat_lawful RestartSim.ratFormat_lawful (fun _ => rfl) tenSteps nineSteps
    (by decide) () mem mem' (haveOwn_of_all hall) s 8 disk [2, 0, 1] (by decide) hpc rfl hlast (by rw [hsim]) (by rw [hsim]) (by rw [hsim])
  rw [hsim] at hr
  obtain ⟨a1, -, -, -, a5, -⟩ := hk 3
  refine ⟨machine, hM, r, hr, ?_, a5⟩
  rw [← a1, (C162_simulation_partial row_enumerates row_owned hM idle_same tenSteps () mem (haveOwn_of_all hall) (haveOwn_of_all hall) 12).pc]
  exact (second_step_returned _ _ t.sol t'.sol mem _ _ k1 k2).1

/-- **C183** is false if the Newton method may only do one iteration: it may do another one if the error became much smaller, also compared
with that of the last iteration of the previous time step, which is not in the files.  Here new processes do the next time step, but those
which were not interrupted give up. -/
theorem C183_memory_violated : ∃ task : Task ℕ 2 ℚ (Blk 2 ℚ) Unit, LocalTask task ∧ (∀ own dt mem, (task.settings own dt mem).maxIterations = 1) ∧
    (∃ machine : Machines, Performs task rowMesh.toGrid (fun k : Fin 6 => (k : ℕ)) machine) ∧
      ∀ machine : Machines, Performs task rowMesh.toGrid (fun k : Fin 6 => (k : ℕ)) machine → ∀ s disk,
        let c := run (several task machine idleHooks) 8 (start tenSteps ⟨(), fun _ _ => 1, fun _ _ => 1, newMemory 0⟩)
        c.pc = .restart ∧ c.trace.getLast? ≠ some .endEpisode ∧
          ∃ r, restartAll rowSetup (writeAll rowSetup c disk [0, 1, 2]) c.sim.time c.sim c.prob.own (newMemory 0) s = some r ∧
            (run (several task machine idleHooks) 3 r).pc = .endStep ∧
              (run (several task machine idleHooks) (8 + 1 + 3) (start tenSteps ⟨(), fun _ _ => 1, fun _ _ => 1, newMemory 0⟩)).pc = .thrown := by
  have hl : LocalTask hastySinking :=
    ⟨sinking_local.loc, sinking_local.stencil, sinking_local.row, sinking_local.volume, sinking_local.weight, sinking_local.update, sinking_local.constraint⟩
  refine ⟨hastySinking, hl, fun _ _ _ => rfl, row_performs hl (fun _ _ _ => rfl) fun _ _ _ => rfl, fun machine hM s disk => ?_⟩
  have hbig : (4 : ℚ) < 10 ^ 100 := by norm_num
  obtain ⟨t, ht, he, hsol⟩ := hasty_ok 1 (fun _ => 1) (fun _ => 1) (fun _ => rfl) (fun _ => rfl) (10 ^ 100) hbig (.num (10 ^ 100))
  obtain ⟨t', ht', -, -⟩ := hasty_ok (1 - 1) t.sol t.sol hsol hsol (10 ^ 100) hbig (.num (10 ^ 100))
  have k1 : oneSolver (fun dt mem old => single (hastySinking.equations () dt (onCells six fun k => old k)) six (hastySinking.settings () dt mem))
      hastySinking.fuel 1 (newMemory 0) (fun _ => 1) (fun _ => 1) = (.returned t.sol true, ⟨t.error, t.lastError, t.iterations, 0 + 1⟩) := by
    simp only [oneSolver, hastySinking, sinking, newMemory, ht]
  have k2 : oneSolver (fun dt mem old => single (hastySinking.equations () dt (onCells six fun k => old k)) six (hastySinking.settings () dt mem))
      hastySinking.fuel 1 (newMemory 0) t.sol t.sol = (.returned t'.sol true, ⟨t'.error, t'.lastError, t'.iterations, 0 + 1⟩) := by
    simp only [oneSolver, hastySinking, sinking, newMemory, ht']
  obtain ⟨hpc, hlast, hsim, hown⟩ := row_restart hM k1
  have hall : HaveAll (P := 2) rowMesh.toGrid six (fun _ _ => (1 : Blk 2 ℚ)) fun _ => 1 := fun _ _ _ _ => rfl
  intro c
  obtain ⟨z, hz, hr⟩ := restartAll_ok rowSetup intFormat_lawful RestartSim.ratFormat_lawful c disk [0, 1, 2] (by decide) c.sim c.prob.own
    (newMemory 0) s
  have hzown : HaveOwn (P := 2) rowMesh.toGrid six z t.sol := by
    intro p i j hj ho
    rw [hz p i (List.getElem?_eq_some_iff.1 hj).1]
    exact hown p i j hj ho
  refine ⟨hpc, hlast, _, hr, ?_, ?_⟩
  · have e : restarted (save c.sim) c.sim (⟨c.prob.own, z, z, newMemory 0⟩ : ParSim.St ℚ (Fin 3 → ℕ → Blk 2 ℚ) Unit) =
        start nineSteps ⟨(), z, z, newMemory 0⟩ := by
      have : c.sim = nineSteps := hsim
      rw [this]
      rfl
    rw [e, (C162_simulation_partial row_enumerates row_owned hM idle_same nineSteps () (newMemory 0) hzown hzown 3).pc]
    exact next_step _ _ t'.sol _ _ k2
  · rw [(C162_simulation_partial row_enumerates row_owned hM idle_same tenSteps () (newMemory 0) (haveOwn_of_all hall) (haveOwn_of_all hall)
      (8 + 1 + 3)).pc]
    refine second_step_gives_up (fun m => ∃ e, m.error = .num e ∧ e ≤ 4) _ _ t.sol _ _ k1 ⟨0, he, by norm_num⟩ fun dt m hm => ?_
    obtain ⟨e, hme, hle⟩ := hm
    obtain ⟨w, hw, hwe⟩ := hasty_bad dt (1 - 1) t.sol t.sol hsol hsol e hle m.lastError
    rw [← hme] at hw
    refine ⟨w.sol, ⟨w.error, w.lastError, w.iterations, m.calls + 1⟩, ?_, 1, hwe, by norm_num⟩
    simp only [oneSolver, hastySinking, sinking, hw]

/-- A directory in which three processes have written, read by two: the first process rejects its file. -/
example (clock : Clock ℚ) (d : List (List ℚ)) (disk : Disk) (fresh : Sim ℚ) (z : ℕ → Fin 2 → ℚ) (y : Setup 1 ℚ)
    (h : disk (y.name 1 0) = some (writeFile rowSetup.integer rowSetup.number (rowSetup.cookie 0) c!"Entities: Codim 0" clock d)) :
    readOne y disk 1 fresh z 0 = .error .section :=
  C183_rejected rowSetup y 0 0 (.inl (by decide)) clock d 1 disk h fresh z

/-- The names of the example: the files of the second process at the times 1 and 2. -/
example : rowSetup.name 1 1 = c!"results/row_time=1_rank=1.ers" ∧ rowSetup.name 2 1 = c!"results/row_time=2_rank=1.ers" := by
  decide +kernel

end Verif.ParRestart
