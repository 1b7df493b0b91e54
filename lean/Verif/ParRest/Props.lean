import Verif.ParRest.Lemmas

/-
C181: simulations on several processes which begin in equilibrium.
-/

set_option autoImplicit false
set_option linter.unusedSectionVars false

namespace Verif.ParRest

open Verif.TimeLoop Verif.Newton Verif.ParNewton Verif.ParSolve.Block Verif.ParSim Verif.Overlap Verif.ParBalance
open Verif.ParSolve (Enumerates Wide Steps Covered mem_all steps_mem wide_one row_enumerates)

variable {P N E : ℕ} {G K V X : Type} [Field K] [LinearOrder K] [IsStrictOrderedRing K] [Inhabited V]
variable {g : Grid (P + 1) G} {cell : Fin N → G} {task : Task G E K V X}
  {machine : X → K → Memory K → (Fin (P + 1) → ℕ → V) → ParNewton.Machine P E K V}

/-- **C181** A simulation on several processes which begins in equilibrium stays there.  If the equations of all cells are satisfied by
the initial solution, as long as the step begins with it and whatever the state of the problem and the time step size are, all processes
keep the values of all their own cells on both time levels, after any number of steps of the time loop, whatever the distribution, the
schedules of the messages, the callbacks and the failures are. -/
theorem C181_stays {d : Fin (P + 1) → Overlap.Native (P + 1)} (v : Valid g d) (hE : Enumerates g cell) (hM : Performs task g cell machine)
    {h : Hooks K (Fin (P + 1) → ℕ → V) X} (hh : OwnHooks g h) (y0 : Fin (P + 1) → ℕ → V) (hs : Stationary task cell (values g cell y0))
    (hn : NoChange task cell (values g cell y0)) (ha : Accepts task) (sim : Sim K) (own : X) (mem : Memory K) (n : ℕ) :
    let c := run (several task machine h) n (start sim ⟨own, y0, y0, mem⟩)
    SameOwn g c.prob.sol0 y0 ∧ SameOwn g c.prob.sol1 y0 := by
  intro c
  have hO : ∀ p, ∀ c ∈ g.cells p, c ∈ g.all := v.owned
  obtain ⟨x0, e0⟩ := exists_one (cell := cell) v.nodup y0
  have hv : values g cell y0 = onCells cell fun k => x0 k := values_eq hE e0
  rw [hv] at hs hn
  have hsame := C162_simulation_partial hE hO hM (oneHooks_same hE hO hh) sim own mem e0 e0 n
  have hk := run_keeps (h := oneHooks g cell h) (fun own => one_keeps hE.1 own task.fuel hs ha hn (fun _ _ => (hM _ _ mem _ _ (own_of_haveOwn hE hO e0)).2.2)) sim own mem n
  have key : ∀ y x, HaveOwn g cell y x → x = x0 → SameOwn g y y0 := by
    rintro y x hx rfl p i c hc ho
    obtain ⟨k, rfl⟩ := (hE.2 c).1 (hO p c (List.mem_of_getElem? hc))
    exact (hx p i k hc ho).trans (e0 p i k hc ho).symm
  exact ⟨key _ _ hsame.sol0 hk.1, key _ _ hsame.sol1 hk.2⟩

/-- **C181** And if nothing fails, each time integration of this simulation succeeds at the first attempt: the size of the time step
remains the one which was asked for, and the loop goes on to the end of the step. -/
theorem C181_first_attempt {d : Fin (P + 1) → Overlap.Native (P + 1)} (v : Valid g d) (hE : Enumerates g cell)
    (hM : Performs task g cell machine) {h : Hooks K (Fin (P + 1) → ℕ → V) X} (hh : OwnHooks g h) (y0 : Fin (P + 1) → ℕ → V)
    (hs : Stationary task cell (values g cell y0)) (hn : NoChange task cell (values g cell y0)) (ha : Accepts task)
    (hw : Works task cell (values g cell y0) h.maxFails) (sim : Sim K) (own : X) (mem : Memory K) (n : ℕ) :
    let c : ℕ → Conf K (St K (Fin (P + 1) → ℕ → V) X) := fun j => run (several task machine h) j (start sim ⟨own, y0, y0, mem⟩)
    (c n).pc = .integrate → (c n).sim.dt ≠ 0 →
      Integrates (several task machine h) (c n) ∧ (c (n + 1)).sim = (c n).sim := by
  intro c hpc hdt
  have hO : ∀ p, ∀ c ∈ g.cells p, c ∈ g.all := v.owned
  obtain ⟨x0, e0⟩ := exists_one (cell := cell) v.nodup y0
  have hv : values g cell y0 = onCells cell fun k => x0 k := values_eq hE e0
  rw [hv] at hs hn hw
  set A := one task cell (oneHooks g cell h) with hA
  set b : ℕ → Conf K (St K (ℕ → V) X) := fun j => run A j (start sim ⟨own, x0, x0, mem⟩) with hbdef
  have hsame : ∀ j, Same g cell (c j) (b j) := fun j => C162_simulation_partial hE hO hM (oneHooks_same hE hO hh) sim own mem e0 e0 j
  have hb1 : ∀ j, b (j + 1) = step A (b j) := fun j => run_succ _ _ _
  have hc1 : ∀ j, c (j + 1) = step (several task machine h) (c j) := fun j => run_succ _ _ _
  have hk := run_keeps (h := oneHooks g cell h) (fun own => one_keeps hE.1 own task.fuel hs ha hn (fun _ _ => (hM _ _ mem _ _ (own_of_haveOwn hE hO e0)).2.2)) sim own mem n
  have hpc' : (b n).pc = .integrate := (hsame n).pc ▸ hpc
  have hdt' : (b n).sim.dt ≠ 0 := (hsame n).sim ▸ hdt
  have hstep : (step A (b n)).pc = .endStep ∧ (step A (b n)).sim = (b n).sim :=
    step_rest (fun own dt mem hdt => one_rest hE.1 own dt mem hs ha hn hw (fun _ _ => (hM _ _ mem _ _ (own_of_haveOwn hE hO e0)).2.2) hdt) (oneHooks g cell h) hw.attempts (b n) hk.1 hk.2 hpc' hdt'
  rw [← hb1] at hstep
  refine ⟨⟨hpc, ?_⟩, ?_⟩
  · rw [← hc1, (hsame (n + 1)).pc, hstep.1]
  · rw [(hsame (n + 1)).sim, hstep.2, (hsame n).sim]

/-! ### An example -/

/-- Diffusion in the row of cells of `rowMesh`, without sources.  The second unknown of a cell is the square of the first one. -/
def mixing : Task ℕ 2 ℚ (Blk 2 ℚ) ℚ where
  equations _ dt old :=
    { rowEquations with
      row := fun c Y => if dt = 0 then none else
        some (![(Y c 0 - old c 0) / dt + ((rowEquations.stencil c).map fun c' => Y c 0 - Y c' 0).sum, Y c 1 - Y c 0 ^ 2],
          fun c' => if c' = c then !![1 / dt + ((rowEquations.stencil c).map fun c' => if c' = c then 0 else 1).sum, 0; -2 * Y c 0, 1]
            else !![-1, 0; 0, 0]) }
  settings _ _ _ := { rowSettings with solver := { rowSettings.solver with tolerance := 1 / 100, tiny := 1 / 10 ^ 25 } }
  fuel := 20

theorem mixing_local : LocalTask mixing where
  loc own dt old :=
    { nodup := rowEquations_local.nodup
      self := rowEquations_local.self
      row := fun c Y Z h => by
        have h0 := h c (rowEquations_local.self c)
        have h1 : ((rowEquations.stencil c).map fun c' => Y c 0 - Y c' 0) = (rowEquations.stencil c).map fun c' => Z c 0 - Z c' 0 :=
          List.map_congr_left fun c' hc' => by rw [h0, h c' hc']
        simp only [mixing]
        rw [h1, h0] }
  stencil _ _ _ _ _ _ := rfl
  row _ _ _ _ _ h := by simp only [mixing, h]
  volume _ _ _ _ _ _ := rfl
  weight _ _ _ _ _ _ := rfl
  update _ _ _ _ _ _ := rfl

/-- The processes begin with the same value in all cells. -/
def uniform (_ : Fin 3) (_ : ℕ) : Blk 2 ℚ := ![3, 9]

theorem uniform_values (k : Fin 6) : values (P := 2) rowMesh.toGrid (fun k : Fin 6 => (k : ℕ)) uniform k = ![3, 9] := by
  rw [values_eq (x := fun _ => ![3, 9]) row_enumerates (fun p i k _ _ => rfl)]
  exact onCells_cell row_enumerates.1 _ k

theorem mixing_stationary : Stationary mixing (fun k : Fin 6 => (k : ℕ)) (values (P := 2) rowMesh.toGrid (fun k : Fin 6 => (k : ℕ)) uniform) := by
  intro own dt k r J h
  simp only [mixing] at h
  split_ifs at h
  simp only [Option.some.injEq, Prod.mk.injEq] at h
  have hin : ∀ k : Fin 6, ∀ c' ∈ rowEquations.stencil k, c' < 6 := by decide
  have h0 : ((rowEquations.stencil k).map fun c' =>
      values (P := 2) rowMesh.toGrid (fun k : Fin 6 => (k : ℕ)) uniform k 0 -
        values (P := 2) rowMesh.toGrid (fun k : Fin 6 => (k : ℕ)) uniform c' 0).sum = 0 := by
    refine List.sum_eq_zero fun z hz => ?_
    obtain ⟨c', hc', rfl⟩ := List.mem_map.1 hz
    rw [uniform_values k, uniform_values ⟨c', hin k c' hc'⟩]
    simp
  rw [← h.1, h0, uniform_values k]
  funext j
  fin_cases j <;> norm_num

/-- Three processes with two cells each, in a row: uniform solutions stay as they are. -/
example (sim : Sim ℚ) (mem : Memory ℚ) (n : ℕ) :
    ∃ machine : ℚ → ℚ → Memory ℚ → (Fin 3 → ℕ → Blk 2 ℚ) → ParNewton.Machine 2 2 ℚ (Blk 2 ℚ),
      let c := fun j => run (several mixing machine (decayHooks fun y => y 0 0 0)) j (start sim ⟨1, uniform, uniform, mem⟩)
      SameOwn (P := 2) rowMesh.toGrid (c n).prob.sol0 uniform ∧
        ((c n).pc = .integrate → (c n).sim.dt ≠ 0 → (c (n + 1)).sim = (c n).sim) := by
  obtain ⟨machine, hM⟩ := C162_exists (task := mixing) (overlapSize := 1) mixing_local row_enumerates rowMesh_correct
    (by omega) (fun _ _ _ => wide_one rowMesh_correct (by decide) _) fun _ _ _ => ⟨rowEquations_pattern.nodup, rowEquations_pattern.range, rowEquations_pattern.own⟩
  have hfirst : ∀ y y' : Fin 3 → ℕ → Blk 2 ℚ, SameOwn (P := 2) rowMesh.toGrid y y' → y 0 0 = y' 0 0 :=
    fun y y' h => h 0 0 0 (by decide) (by decide)
  have hh : OwnHooks (P := 2) rowMesh.toGrid (decayHooks fun y : Fin 3 → ℕ → Blk 2 ℚ => y 0 0 0) := by
    refine ⟨?_, fun own y y' mem sim h => rfl⟩
    intro f hf own y y' mem sim h
    simp only [List.mem_cons, List.not_mem_nil, or_false, decayHooks] at hf
    rcases hf with rfl | rfl | rfl | rfl | rfl | rfl | rfl | rfl <;> simp only [hfirst y y' h]
  have hn : NoChange mixing (fun k : Fin 6 => (k : ℕ)) (values (P := 2) rowMesh.toGrid (fun k : Fin 6 => (k : ℕ)) uniform) :=
    fun _ _ _ => sub_zero _
  have ha : Accepts mixing := fun _ _ _ => by
    show (0 : ℚ) ≤ 1 / 10 ^ 25 ∧ (1 : ℚ) / 10 ^ 25 ≤ 1 / 100 / 10 ^ 20
    norm_num
  refine ⟨machine, (C181_stays (P := 2) rowMesh_correct row_enumerates hM hh uniform mixing_stationary hn ha sim 1 mem n).1,
    fun h1 h2 => (C181_first_attempt (P := 2) rowMesh_correct row_enumerates hM hh uniform mixing_stationary hn ha ?_ sim 1 mem n h1 h2).2⟩
  refine ⟨fun _ dt k hdt => ?_, fun _ _ _ => rfl, fun _ _ _ => rfl, fun _ _ _ => ?_, fun _ _ _ => ?_, by decide, by decide⟩
  · simp only [mixing, if_neg hdt, Option.isSome_some]
  · show (0 : ℚ) ≤ 10; norm_num
  · show (0 : ℚ) ≤ 1; norm_num

end Verif.ParRest
