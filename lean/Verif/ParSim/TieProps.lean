import Verif.ParSim.TiedProps
import Verif.Hybrid.Props

/-
C162 and C184: constraints for tasks which are performed without.
-/

set_option autoImplicit false
set_option linter.unusedSectionVars false

namespace Verif.ParSim

open Verif.Mpi Verif.TimeLoop Verif.Newton Verif.ParNewton Verif.ParSolve.Block Verif.Overlap
open Verif.ParSolve (Enumerates Wide Steps Covered mem_all steps_mem wide_one row_enumerates)

variable {P N E : ℕ} {G K V X : Type} [DecidableEq G] [Field K] [LinearOrder K] [IsStrictOrderedRing K] [Inhabited V]
variable {g : Grid (P + 1) G} {cell : Fin N → G} {task : Task G E K V X}
  {machine : X → K → Memory K → (Fin (P + 1) → ℕ → V) → ParNewton.Machine P E K V}

/-! ### Specification -/

/-- The equations with constraints: the update of cells with constraints is zero, instead of what their equations say. -/
def tiedEquations (con : G → Option V) (eqs : Equations G E K V) : Equations G E K V :=
  { eqs with
    row := fun c Y => (eqs.row c Y).map fun r => match con c with
      | some _ => (0, fun c' => if c' = c then 1 else 0)
      | none => r
    constraint := con }

/-- The task with the constraints `con own dt`, for the state `own` of the problem and time steps of size `dt` -/
def tiedTask (con : X → K → G → Option V) (task : Task G E K V X) : Task G E K V X :=
  { task with equations := fun own dt old => tiedEquations (con own dt) (task.equations own dt old) }

/-- The constraints of the cells of a process -/
def localConstraints (con : G → Option V) (g : Grid (P + 1) G) (p : Fin (P + 1)) (i : ℕ) : Option V := (g.cells p)[i]?.bind con

/-- The processes which perform the task with constraints -/
def tiedMachine (con : X → K → G → Option V) (g : Grid (P + 1) G)
    (machine : X → K → Memory K → (Fin (P + 1) → ℕ → V) → ParNewton.Machine P E K V) :
    X → K → Memory K → (Fin (P + 1) → ℕ → V) → ParNewton.Machine P E K V :=
  fun own dt mem y => tie (localConstraints (con own dt) g) (machine own dt mem y)

/-! ### Lemmas -/

theorem tied_local {eqs : Equations G E K V} (h : Local eqs) (con : G → Option V) : Local (tiedEquations con eqs) where
  nodup := h.nodup
  self := h.self
  row c Y Z hYZ := by
    have e := h.row c Y Z hYZ
    simp only [tiedEquations, e]

theorem started_tied {eqs : Equations G E K V} {set : Settings K} {M : ParNewton.Machine P E K V} (h : Started eqs set g cell M)
    (con : G → Option V) : Started (tiedEquations con eqs) set g cell (tie (localConstraints con g) M) := by
  obtain ⟨hl, hE, d, overlapSize, face, anyIdx, s, v, hs, hw, hp, hg, hr, hf, R⟩ := h
  refine ⟨tied_local hl con, hE, d, overlapSize, face, anyIdx, s, v, hs, hw, ⟨hp.nodup, hp.range, hp.own⟩, hg, hr, hf, ?_⟩
  have hcon : ∀ p (i : ℕ) c, (g.cells p)[i]? = some c → localConstraints con g p i = con c := fun p i c hc => by
    simp only [localConstraints, hc, Option.bind_some]
  exact
    { numGridDof := R.numGridDof
      numTotalDof := R.numTotalDof
      volume := R.volume
      weight := R.weight
      update := R.update
      constraints := fun p i c hc => hcon p i c hc
      tolerance := R.tolerance
      maxError := R.maxError
      maxIterations := R.maxIterations
      targetIterations := R.targetIterations
      beginOk := R.beginOk
      endOk := R.endOk
      syncOverlap := R.syncOverlap
      linearized := fun n p x a b h => by
        have h' : (M.linearize n p x).map (clearRows (localConstraints con g p)) = some (a, b) := h
        obtain ⟨⟨a0, b0⟩, h0, he⟩ := Option.map_eq_some_iff.1 h'
        obtain ⟨k1, k2, k3⟩ := R.linearized n p x a0 b0 h0
        have ea : a = (clearRows (localConstraints con g p) (a0, b0)).1 := (congrArg Prod.fst he).symm
        have eb : b = (clearRows (localConstraints con g p) (a0, b0)).2 := (congrArg Prod.snd he).symm
        subst ea eb
        refine ⟨k1, k2, fun i c hc ho => ?_⟩
        obtain ⟨J, j1, j2⟩ := k3 i c hc ho
        cases hcc : con c with
        | none =>
          refine ⟨J, fun Y hY => ?_, fun m hm c' hc' => ?_⟩
          · simp only [tiedEquations, j1 Y hY, hcc, Option.map_some, clearRows, hcon p i c hc]
            rfl
          · simp only [clearRows, hcon p i c hc, hcc]
            exact j2 m hm c' hc'
        | some w =>
          refine ⟨fun c' => if c' = c then 1 else 0, fun Y hY => ?_, fun m hm c' hc' => ?_⟩
          · simp only [tiedEquations, j1 Y hY, hcc, Option.map_some, clearRows, hcon p i c hc, Option.isSome_some, if_true]
          · have hiff : m = i ↔ c' = c := by
              constructor
              · rintro rfl
                rw [hc] at hc'
                exact (Option.some.inj hc').symm
              · rintro rfl
                obtain ⟨l1, l2⟩ := List.getElem?_eq_some_iff.1 hc
                obtain ⟨l3, l4⟩ := List.getElem?_eq_some_iff.1 hc'
                exact ((v.nodup p).getElem_inj_iff).1 (l4.trans l2.symm)
            simp only [clearRows, hcon p i c hc, hcc, Option.isSome_some, if_true, hiff]
      failed := fun n p x h => by
        have h' : (M.linearize n p x).map (clearRows (localConstraints con g p)) = none := h
        obtain ⟨c, hc, hn⟩ := R.failed n p x (Option.map_eq_none_iff.1 h')
        refine ⟨c, hc, fun Y hY => ?_⟩
        simp only [tiedEquations, hn Y hY, Option.map_none]
      residual := R.residual
      solve := R.solve }

theorem performs_tied (h : Performs task g cell machine) (con : X → K → G → Option V) :
    PerformsTied (tiedTask con task) g cell (tiedMachine con g machine) := by
  intro own dt mem y old ho
  obtain ⟨hs, hc, -⟩ := h own dt mem y old ho
  exact ⟨started_tied hs (con own dt), hc⟩

/-! ### Theorems -/

/-- **C162** (partial) Processes which simulate something without constraints simulate it also with any constraints, if each of them applies
those of its cells to its solutions, its matrix and its residual: the simulation is the one on a single process which has the whole grid.
Missing for the full property: auxiliary equations, cached intensive quantities, rounding errors. -/
theorem C162_tie_partial (hE : Enumerates g cell) (hO : ∀ p, ∀ c ∈ g.cells p, c ∈ g.all) (hM : Performs task g cell machine)
    (con : X → K → G → Option V) {h : Hooks K (Fin (P + 1) → ℕ → V) X} {h1 : Hooks K (ℕ → V) X} (hh : SameHooks g cell h h1) (sim : Sim K)
    (own : X) (mem : Memory K) {y0 y1 : Fin (P + 1) → ℕ → V} {x0 x1 : ℕ → V} (e0 : HaveOwn g cell y0 x0) (e1 : HaveOwn g cell y1 x1) (n : ℕ) :
    Same g cell (run (tiedSeveral (tiedTask con task) (tiedMachine con g machine) h) n (start sim ⟨own, y0, y1, mem⟩))
      (run (tiedOne (tiedTask con task) cell h1) n (start sim ⟨own, x0, x1, mem⟩)) :=
  C162_constraints_partial hE hO (performs_tied hM con) hh sim own mem e0 e1 n

/-- Three processes with two cells each, in a row: the values of the second cell are given from the second unit of time on. -/
example (sim : Sim ℚ) (mem : Memory ℚ) (n : ℕ) : ∃ machine : ℚ → ℚ → Memory ℚ → (Fin 3 → ℕ → Blk 2 ℚ) → ParNewton.Machine 2 2 ℚ (Blk 2 ℚ),
    Performs decay rowMesh.toGrid (fun k : Fin 6 => (k : ℕ)) machine ∧
    let con : ℚ → ℚ → ℕ → Option (Blk 2 ℚ) := fun own dt c => if c = 1 ∧ 1 ≤ own + dt then some ![own, dt] else none
    Same rowMesh.toGrid (fun k : Fin 6 => (k : ℕ))
      (run (tiedSeveral (tiedTask con decay) (tiedMachine con rowMesh.toGrid machine) (decayHooks fun y => y 0 0 0)) n
        (start sim ⟨1, fun _ _ => ![1, 1], fun _ _ => ![1, 1], mem⟩))
      (run (tiedOne (tiedTask con decay) (fun k : Fin 6 => (k : ℕ)) (decayHooks fun x => x 0 0)) n
        (start sim ⟨1, fun _ => ![1, 1], fun _ => ![1, 1], mem⟩)) := by
  obtain ⟨machine, hM⟩ := C162_exists (task := decay) (overlapSize := 1) decay_local row_enumerates rowMesh_correct (by omega)
    (fun _ _ _ => wide_one rowMesh_correct (by decide) _) fun _ _ _ => ⟨rowEquations_pattern.nodup, rowEquations_pattern.range, rowEquations_pattern.own⟩
  have hfirst : ∀ (y : Fin 3 → ℕ → Blk 2 ℚ) (x : ℕ → Blk 2 ℚ), HaveOwn (P := 2) rowMesh.toGrid (fun k : Fin 6 => (k : ℕ)) y x → y 0 0 = x 0 :=
    fun y x h => h 0 0 0 (by decide) (by decide)
  refine ⟨machine, hM, C162_tie_partial row_enumerates (fun p c hc => rowMesh_correct.owned p c hc) hM _ ?_ sim 1 mem ?_ ?_ n⟩
  · refine ⟨?_, ?_, ?_, ?_, ?_, ?_, ?_, ?_, ?_, rfl, rfl, rfl, rfl⟩ <;> intro own y x mem sim h <;>
      simp only [decayHooks, hfirst y x h]
  · intro p i k _ _; rfl
  · intro p i k _ _; rfl

end Verif.ParSim

namespace Verif.Hybrid

open Verif.TimeLoop Verif.Overlap Verif.Newton Verif.ParNewton
open Verif.ParSim (Memory Hooks SameHooks Same tiedSeveral tiedOne tiedTask tiedMachine)

variable {P N E : ℕ} {G C K V X : Type} [DecidableEq G] [Field K] [LinearOrder K] [IsStrictOrderedRing K] [Inhabited V]
variable {f : Flow G C E K V X} {settings : X → K → Memory K → Settings K} {fuel : ℕ} {g : Grid (P + 1) G} {cell : Fin N → G}
  {machine : X → K → Memory K → (Fin (P + 1) → ℕ → V) → Machine P E K V}

/-- **C184** (partial) The same with constraints: a whole simulation with constraints on several processes, each of which assembles its linear
system with any number of threads, is the one on a single process.  Constraints are applied by one thread when all of them have finished.
(They are collected by several threads, C186; `TpfaLinearizer` has none, so that it does not know about constraints.)  Missing for the full
property: auxiliary equations, cached intensive quantities, rounding errors. -/
theorem C184_constraints_partial (hM : Performs f settings g cell machine) (con : X → K → G → Option V)
    {h : Hooks K (Fin (P + 1) → ℕ → V) X} {h1 : Hooks K (ℕ → V) X} (hh : SameHooks g cell h h1) (sim : Sim K) (own : X) (mem : Memory K)
    {y0 y1 : Fin (P + 1) → ℕ → V} {x0 x1 : ℕ → V} (e0 : HaveOwn g cell y0 x0) (e1 : HaveOwn g cell y1 x1) (n : ℕ) :
    Same g cell (run (tiedSeveral (tiedTask con (task f settings fuel)) (tiedMachine con g machine) h) n (start sim ⟨own, y0, y1, mem⟩))
      (run (tiedOne (tiedTask con (task f settings fuel)) cell h1) n (start sim ⟨own, x0, x1, mem⟩)) := by
  obtain ⟨⟨d, _, _, _, _, v, -⟩, -⟩ := hM.2 own 0 mem y0
  exact ParSim.C162_tie_partial hM.1 v.owned (C184_performs hM) con hh sim own mem e0 e1 n

end Verif.Hybrid
