import Verif.ParCache.Sinking
import Verif.ParBalance.Lemmas
import Mathlib.Tactic.NormNum

/-
C182: cached intensive quantities in simulations on several processes.
-/

set_option autoImplicit false
set_option linter.unusedSectionVars false

namespace Verif.ParCache

open Verif.TimeLoop Verif.Newton Verif.ParNewton Verif.ParSolve.Block Verif.ParSim Verif.Overlap
open Verif.ParSolve (Enumerates Wide Steps Covered mem_all steps_mem wide_one row_enumerates)

variable {P N E : ℕ} {G K V X : Type} [Field K] [LinearOrder K] [IsStrictOrderedRing K] [Inhabited V]
variable {g : Grid (P + 1) G} {cell : Fin N → G} {task : Task G E K V X}
  {machine : X → K → Memory K → (Fin (P + 1) → ℕ → V) → ParNewton.Machine P E K V}

/-- **C182** (partial) Storing intensive quantities does not change a simulation on several processes as long as the Newton method does not
succeed in a single iteration: whichever intensive quantities are stored, after any number of steps of the time loop the processes are at
the same point as one process which has the whole grid and stores nothing, and have its values for all of their cells, also for copies,
on both time levels.  Missing for the full property: time steps for which one Newton iteration is enough (`C182_violated`). -/
theorem C182_cached_partial (hE : Enumerates g cell) (hO : ∀ p, ∀ c ∈ g.cells p, c ∈ g.all) (hM : Performs task g cell machine)
    (filled : X → K → Memory K → Fin (P + 1) → ℕ → Bool) {h : Hooks K (Fin (P + 1) → ℕ → V) X} {h1 : Hooks K (ℕ → V) X}
    (hh : SameHooks g cell h h1) (sim : Sim K) (own : X) (mem : Memory K) {y0 y1 : Fin (P + 1) → ℕ → V} {x0 x1 : ℕ → V}
    (e0 : HaveAll g cell y0 x0) (e1 : HaveAll g cell y1 x1) (n : ℕ)
    (hit : ∀ j < n, ParBalance.Integrates (one task cell h1) (run (one task cell h1) j (start sim ⟨own, x0, x1, mem⟩)) →
      (run (one task cell h1) (j + 1) (start sim ⟨own, x0, x1, mem⟩)).prob.memory.iterations ≠ 1) :
    let c := run (severalCached task machine filled h) n (start sim ⟨own, y0, y1, mem⟩)
    let c1 := run (one task cell h1) n (start sim ⟨own, x0, x1, mem⟩)
    Same g cell c c1 ∧ HaveAll g cell c.prob.sol0 c1.prob.sol0 ∧ HaveAll g cell c.prob.sol1 c1.prob.sol1 := by
  have key : ∀ m ≤ n, AlikeConf (AllSt g cell) (run (severalCached task machine filled h) m (start sim ⟨own, y0, y1, mem⟩))
      (run (one task cell h1) m (start sim ⟨own, x0, x1, mem⟩)) := by
    intro m
    induction m with
    | zero => exact fun _ => ⟨rfl, rfl, rfl, rfl, rfl, rfl, e0, e1⟩
    | succ m ih =>
      intro hm
      rw [ParBalance.run_succ, ParBalance.run_succ]
      refine step_cached hE hO hM filled hh (ih (by omega)) fun hI => ?_
      have := hit m (by omega) hI
      rwa [ParBalance.run_succ] at this
  obtain ⟨a1, a2, a3, a4, a5, a6, a7, a8⟩ := key n le_rfl
  exact ⟨⟨a1, a2, a3, a4, a5, a6, haveOwn_of_all a7, haveOwn_of_all a8⟩, a7, a8⟩

/-- The callbacks of the example do the same on several processes. -/
theorem idle_same : SameHooks (P := 2) (V := Blk 2 ℚ) rowMesh.toGrid six idleHooks idleHooks :=
  ⟨fun _ _ _ _ _ _ => rfl, fun _ _ _ _ _ _ => rfl, fun _ _ _ _ _ _ => rfl, fun _ _ _ _ _ _ => rfl, fun _ _ _ _ _ _ => rfl,
    fun _ _ _ _ _ _ => rfl, fun _ _ _ _ _ _ => rfl, fun _ _ _ _ _ _ => rfl, fun _ _ _ _ _ _ => rfl, rfl, rfl, rfl, rfl⟩

/-- **C182** is false if one Newton iteration is enough: there are equations which three processes solve like a single one as long as nothing
is stored, but if intensive quantities are stored, they are those of copies with old values in the next time step, and the simulation is
given up. -/
theorem C182_violated : ∃ task : Task ℕ 2 ℚ (Blk 2 ℚ) Unit, LocalTask task ∧
    (∃ machine : Machines, Performs task rowMesh.toGrid (fun k : Fin 6 => (k : ℕ)) machine) ∧
      ∀ machine : Machines, Performs task rowMesh.toGrid (fun k : Fin 6 => (k : ℕ)) machine → ∀ mem,
        (run (one task (fun k : Fin 6 => (k : ℕ)) idleHooks) 12 (start tenSteps ⟨(), fun _ => 1, fun _ => 1, mem⟩)).pc = .endStep ∧
          (run (several task machine idleHooks) 12 (start tenSteps ⟨(), fun _ _ => 1, fun _ _ => 1, mem⟩)).pc = .endStep ∧
            (run (severalCached task machine (fun _ _ _ _ _ => true) idleHooks) 12
              (start tenSteps ⟨(), fun _ _ => 1, fun _ _ => 1, mem⟩)).pc = .thrown := by
  refine ⟨sinking, sinking_local, C162_exists (task := sinking) (overlapSize := 1) sinking_local row_enumerates rowMesh_correct (by omega)
    (fun _ _ _ => wide_one rowMesh_correct (by decide) _) (fun _ _ _ => ⟨rowEquations_pattern.nodup, rowEquations_pattern.range, rowEquations_pattern.own⟩),
    fun machine hM mem => ?_⟩
  have h1 : (run (one sinking (fun k : Fin 6 => (k : ℕ)) idleHooks) 12 (start tenSteps ⟨(), fun _ => 1, fun _ => 1, mem⟩)).pc = .endStep := by
    obtain ⟨t, ht, -, hsol⟩ := sink_single 1 1 (fun _ => 1) (fun _ => 1) (fun _ => rfl) (fun _ => rfl) mem.error mem.lastError
    obtain ⟨t', ht', -, -⟩ := sink_single 1 (1 - 1) t.sol t.sol hsol hsol t.error t.lastError
    refine (second_step_returned _ _ t.sol t'.sol mem ⟨t.error, t.lastError, t.iterations, mem.calls + 1⟩
      ⟨t'.error, t'.lastError, t'.iterations, mem.calls + 1 + 1⟩ ?_ ?_).1
    · simp only [oneSolver, sinking, ht]
    · simp only [oneSolver, sinking, ht']
  refine ⟨h1, ?_, ?_⟩
  · have hall : HaveAll (P := 2) rowMesh.toGrid six (fun _ _ => (1 : Blk 2 ℚ)) fun _ => 1 := fun _ _ _ _ => rfl
    have := C162_simulation_partial row_enumerates row_owned hM idle_same tenSteps () mem (haveOwn_of_all hall) (haveOwn_of_all hall) 12
    rw [this.pc]
    exact h1
  · obtain ⟨z, m', hz, hown, hz2⟩ := cached_first hM mem
    exact second_step_thrown _ _ z mem m' hz fun dt m => cached_second hM z hown hz2 dt m

/-- With a smaller tolerance for the Newton method the same equations need two iterations, and three processes which store intensive
quantities do the first two time steps like a single one. -/
example (filled : Unit → ℚ → Memory ℚ → Fin 3 → ℕ → Bool) (mem : Memory ℚ) : ∃ machine : Machines, Performs fineSinking rowMesh.toGrid six machine ∧
    (run (severalCached fineSinking machine filled idleHooks) 12 (start tenSteps ⟨(), fun _ _ => 1, fun _ _ => 1, mem⟩)).pc = .endStep := by
  obtain ⟨machine, hM⟩ := C162_exists (task := fineSinking) (overlapSize := 1)
    ⟨sinking_local.loc, sinking_local.stencil, sinking_local.row, sinking_local.volume, sinking_local.weight, sinking_local.update, sinking_local.constraint⟩
    row_enumerates rowMesh_correct (by omega) (fun _ _ _ => wide_one rowMesh_correct (by decide) _)
    (fun _ _ _ => ⟨rowEquations_pattern.nodup, rowEquations_pattern.range, rowEquations_pattern.own⟩)
  obtain ⟨t, ht, hi, hsol⟩ := fine_single 1 (fun _ => 1) (fun _ => 1) (fun _ => rfl) (fun _ => rfl) mem.error mem.lastError
  obtain ⟨t', ht', hi', -⟩ := fine_single (1 - 1) t.sol t.sol hsol hsol t.error t.lastError
  have k1 : oneSolver (fun dt mem old => single (fineSinking.equations () dt (onCells six fun k => old k)) six (fineSinking.settings () dt mem))
      fineSinking.fuel 1 mem (fun _ => 1) (fun _ => 1) = (.returned t.sol true, ⟨t.error, t.lastError, t.iterations, mem.calls + 1⟩) := by
    simp only [oneSolver, fineSinking, sinking, ht]
  have k2 : oneSolver (fun dt mem old => single (fineSinking.equations () dt (onCells six fun k => old k)) six (fineSinking.settings () dt mem))
      fineSinking.fuel 1 ⟨t.error, t.lastError, t.iterations, mem.calls + 1⟩ t.sol t.sol =
        (.returned t'.sol true, ⟨t'.error, t'.lastError, t'.iterations, mem.calls + 1 + 1⟩) := by
    simp only [oneSolver, fineSinking, sinking, ht']
  obtain ⟨-, -, -, f4, f5⟩ := first_step (fun own => oneSolver (fun dt mem old => single (fineSinking.equations own dt (onCells six fun k => old k)) six
    (fineSinking.settings own dt mem)) fineSinking.fuel) (fun _ => 1) t.sol mem _ k1
  obtain ⟨g1, g2⟩ := second_step_returned (fun own => oneSolver (fun dt mem old => single (fineSinking.equations own dt (onCells six fun k => old k)) six
    (fineSinking.settings own dt mem)) fineSinking.fuel) (fun _ => 1) t.sol t'.sol mem _ _ k1 k2
  refine ⟨machine, hM, ?_⟩
  have hall : HaveAll (P := 2) rowMesh.toGrid six (fun _ _ => (1 : Blk 2 ℚ)) fun _ => 1 := fun _ _ _ _ => rfl
  have := (C182_cached_partial row_enumerates row_owned hM filled idle_same tenSteps () mem hall hall 12 fun j hj hI => ?_).1
  · rw [this.pc]
    exact g1
  · by_cases h3 : j = 3
    · subst h3
      have : (run (one fineSinking six idleHooks) (3 + 1) (start tenSteps ⟨(), fun _ => 1, fun _ => 1, mem⟩)).prob.memory = _ := f4
      rw [this]
      show t.iterations ≠ 1
      omega
    · by_cases h11 : j = 11
      · subst h11
        have : (run (one fineSinking six idleHooks) (11 + 1) (start tenSteps ⟨(), fun _ => 1, fun _ => 1, mem⟩)).prob.memory = _ := g2
        rw [this]
        show t'.iterations ≠ 1
        omega
      · exact absurd hI.1 (f5 j (by omega) h3)

end Verif.ParCache
