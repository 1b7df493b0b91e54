import Verif.Reservoir.Lemmas

/-
Theorems about simulations of reservoirs on several processes.
-/

set_option autoImplicit false
set_option linter.unusedSectionVars false

namespace Verif.Reservoir

open Verif.Flux (Phase Options)
open Verif.TimeLoop Verif.Mpi Verif.Sync Verif.Overlap Verif.OverlapMatrix Verif.Criteria Verif.Newton Verif.ParNewton Verif.ParSolve.Block Verif.GridComm
open Verif.Hybrid (rowTask task derivative residual SameValues Pattern localNet)
open Verif.ParSim (Task Own Memory LocalTask Hooks SameHooks Same several one St)
open Verif.ParSolve (Enumerates Wide wide_one row_enumerates)

variable {P N E : ℕ} {G K V X : Type} [DecidableEq G] [Field K] [LinearOrder K] [IsStrictOrderedRing K]
variable {r : Model G E K V X} {settings : X → K → Memory K → Settings K} {fuel : ℕ} {g : Grid (P + 1) G} {cell : Fin N → G}
  {machine : X → K → Memory K → (Fin (P + 1) → ℕ → V) → Machine P E K V}

/-- **C185** The fluxes between cells: each phase flows from where its pressure is higher (at the same depth) and takes along the
components, and the energy, which it has there; heat is conducted.  The indices of the cells do not matter. -/
theorem C185_fluxes (index : G → ℕ) (own : X) (dt : K) (c c' : G) (k : Nb K) (v v' : V) (e : Fin E) :
    ((r.flow index).flux own dt c c' k v v').1 e = flowing r own e c c' k v v' :=
  flux_value r index own dt c c' k v v' e

/-- **C185** What is stored in a cell -/
theorem C185_storage {cells : Set G} (hs : Sound r cells) (index : G → ℕ) (own : X) (c : G) (v : V) (e : Fin E) :
    ((r.flow index).storage own c v).1 e = content r own e c v :=
  storage_value hs index own c v e

/-- **C185** What flows out of a cell flows into the other one. -/
theorem C185_opposite (index : G → ℕ) (own : X) (dt : K) (c c' : G) (k : Nb K) (v v' : V) (e : Fin E) :
    ((r.flow index).flux own dt c' c k.reverse v' v).1 e = -((r.flow index).flux own dt c c' k v v').1 e := by
  rw [flux_value, flux_value, flowing_reverse]

theorem same_values (i j : G → ℕ) : SameValues (r.flow i) (r.flow j) :=
  ⟨rfl, rfl, rfl, rfl, rfl, rfl, fun own dt c c' k v v' => funext fun e => by rw [flux_value, flux_value]⟩

/-- **C185** The residuals do not depend on how the cells are numbered. -/
theorem C185_residual (i j : G → ℕ) (own : X) (dt : K) (old Y : G → V) (c : G) :
    residual (r.flow i) own dt old Y c = residual (r.flow j) own dt old Y c :=
  (same_values j i).residual_eq own dt old Y c

theorem derivative_order {i j : G → ℕ} (own : X) (dt : K) (Y : G → V) (c c' : G)
    (h1 : ∀ n ∈ r.neighbours c, r.volume c = r.volume n.1 → ∀ p, r.options.active p = true →
      excess n.2 (r.quantities own c (Y c)) (r.quantities own n.1 (Y n.1)) p = 0 → (i c < i n.1 ↔ j c < j n.1))
    (h2 : ∀ n ∈ r.neighbours c', n.1 = c → r.volume c' = r.volume c → ∀ p, r.options.active p = true →
      excess n.2 (r.quantities own c' (Y c')) (r.quantities own c (Y c)) p = 0 → (i c' < i c ↔ j c' < j c)) :
    derivative (r.flow i) own dt Y c c' = derivative (r.flow j) own dt Y c c' := by
  have e1 : ((r.neighbours c).map fun e => e.2.faceArea • ((r.flow i).flux own dt c e.1 e.2 (Y c) (Y e.1)).2) =
      (r.neighbours c).map fun e => e.2.faceArea • ((r.flow j).flux own dt c e.1 e.2 (Y c) (Y e.1)).2 :=
    List.map_congr_left fun n hn => by rw [flux_congr r (i := i) (j := j) own dt c n.1 n.2 _ _ (h1 n hn)]
  have e2 : ((r.neighbours c').map fun e => if e.1 = c then e.2.faceArea • ((r.flow i).flux own dt c' c e.2 (Y c') (Y c)).2 else 0) =
      (r.neighbours c').map fun e => if e.1 = c then e.2.faceArea • ((r.flow j).flux own dt c' c e.2 (Y c') (Y c)).2 else 0 :=
    List.map_congr_left fun n hn => by
      by_cases hc : n.1 = c
      · rw [if_pos hc, if_pos hc, flux_congr r (i := i) (j := j) own dt c' c n.2 _ _ (h2 n hn hc)]
      · rw [if_neg hc, if_neg hc]
  show (if c' = c then ((r.neighbours c).map fun e => e.2.faceArea • ((r.flow i).flux own dt c e.1 e.2 (Y c) (Y e.1)).2).sum + _ - _ + _ else 0)
      - ((r.neighbours c').map fun e => if e.1 = c then e.2.faceArea • ((r.flow i).flux own dt c' c e.2 (Y c') (Y c)).2 else 0).sum = _
  rw [e1, e2]
  rfl

/-- **C185** (partial) Nor do their derivatives, if there is a difference of pressures between any two neighbouring cells of equal volume.
Missing for the full property: the other states (see `C185_numbering_violated`). -/
theorem C185_derivatives_partial (i j : G → ℕ) (own : X) (dt : K) (Y : G → V) (h : ∀ c, NoTies r own Y c) (c c' : G) :
    derivative (r.flow i) own dt Y c c' = derivative (r.flow j) own dt Y c c' := by
  refine derivative_order own dt Y c c' (fun n hn hv p hp h0 => absurd h0 (h c n hn hv p hp)) fun n hn hc hv p hp h0 => ?_
  subst hc
  exact absurd h0 (h c' n hn hv p hp)

theorem task_eq (ho : SameOrder r g cell) :
    rowTask (r.flow fun c => (List.ofFn cell).idxOf c) (fun c => r.flow fun c' => (g.cells (g.owner c)).idxOf c') settings fuel =
      task (r.flow fun c => (List.ofFn cell).idxOf c) settings fuel := by
  have key : ∀ own dt Y c c', c' ∈ Hybrid.stencil (r.flow fun c => (List.ofFn cell).idxOf c) c →
      derivative (r.flow fun c' => (g.cells (g.owner c)).idxOf c') own dt Y c c' =
        derivative (r.flow fun c => (List.ofFn cell).idxOf c) own dt Y c c' := by
    intro own dt Y c c' hc'
    refine derivative_order own dt Y c c' (fun n hn hv p hp h0 => (ho c n hn hv).1) fun n hn hc hv p hp h0 => ?_
    rcases Hybrid.mem_stencil.1 hc' with rfl | ⟨k, hk⟩
    · simp
    · exact (ho c (c', k) hk hv.symm).2
  have hrow : ∀ own dt Y c, (fun c' => if c' ∈ Hybrid.stencil (r.flow fun c => (List.ofFn cell).idxOf c) c then
        derivative (r.flow fun c' => (g.cells (g.owner c)).idxOf c') own dt Y c c' else 0) =
      fun c' => if c' ∈ Hybrid.stencil (r.flow fun c => (List.ofFn cell).idxOf c) c then
        derivative (r.flow fun c => (List.ofFn cell).idxOf c) own dt Y c c' else 0 := by
    intro own dt Y c
    funext c'
    by_cases h : c' ∈ Hybrid.stencil (r.flow fun c => (List.ofFn cell).idxOf c) c
    · rw [if_pos h, if_pos h, key own dt Y c c' h]
    · rw [if_neg h, if_neg h]
  simp only [task, rowTask, hrow]

variable [Inhabited V]

/-- **C185** (partial) A simulation of a reservoir on several processes with threads is the one on a single process, with the same time steps,
callbacks and values of all cells after any number of steps.  Missing for the full property: the order in which the processes have their
cells (see `C185_numbering_violated`), and what is missing for `C184_simulation_partial`. -/
theorem C185_simulation_partial (hM : Performs r settings g cell machine) (ho : SameOrder r g cell) {h : Hooks K (Fin (P + 1) → ℕ → V) X}
    {h1 : Hooks K (ℕ → V) X} (hh : SameHooks g cell h h1) (sim : Sim K) (own : X) (mem : Memory K) {y0 y1 : Fin (P + 1) → ℕ → V}
    {x0 x1 : ℕ → V} (e0 : HaveOwn g cell y0 x0) (e1 : HaveOwn g cell y1 x1) (n : ℕ) :
    let t := task (r.flow fun c => (List.ofFn cell).idxOf c) settings fuel
    Same g cell (run (several t machine h) n (start sim ⟨own, y0, y1, mem⟩)) (run (one t cell h1) n (start sim ⟨own, x0, x1, mem⟩)) := by
  obtain ⟨⟨d, overlapSize, face, anyIdx, s, v, -⟩, -⟩ := hM.2 own 0 mem y0
  have hp := Hybrid.performs_with (fuel := fuel) (fun p => same_values _ _) hM
  rw [task_eq ho] at hp
  exact ParSim.C162_simulation_partial hM.1 v.owned hp hh sim own mem e0 e1 n

theorem conserves {cells : Set G} (hs : Sound r cells) (index : G → ℕ) (e : Fin E) :
    Hybrid.Conserves (r.flow index) e Nb.reverse cells where
  inside := hs.inside
  paired := hs.paired
  area _ := rfl
  antisymmetric own dt c n _ v v' := C185_opposite index own dt c n.1 n.2 v v' e
  step := hs.step

open Classical in
/-- **C185** (partial) The balances of the components, and of energy, in a simulation of a reservoir on several processes with threads: however
the cells are distributed and numbered, whatever the schedules of messages and of threads are, and whichever linearizer the processes
use, at any point of any run there is in the own cells of all processes what was there at the beginning plus what sources and the boundary
supplied during the time steps which have been integrated, up to the tolerance of the Newton method.  Missing for the full property: what is
missing for `C184_balance_partial`; and what is stored must depend on the primary variables only. -/
theorem C185_balance_partial (hM : Performs r settings g cell machine) (hs : Sound r (Set.range cell)) (e : Fin E) {stored : G → V → K}
    (hcontent : ∀ own c v, content r own e c v = stored c v)
    {h : Hooks K (Fin (P + 1) → ℕ → V) X} (hh : ParBalance.OwnHooks g h) (hcont : h.continueOnError = false)
    (tolerance : K) (htol : 0 ≤ tolerance) (hset : ∀ own dt mem, (settings own dt mem).tolerance = tolerance) (weight : G → K)
    (hweight : ∀ own dt k, r.weight own dt (cell k) e = weight (cell k)) (hpos : ∀ k, 0 < weight (cell k)) (hvol : ∀ k, 0 < r.volume (cell k))
    (sim : Sim K) (own : X) (mem : Memory K) (y0 : Fin (P + 1) → ℕ → V) (n : ℕ) :
    let t := rowTask (r.flow fun c => (List.ofFn cell).idxOf c) (fun c => r.flow fun c' => (g.cells (g.owner c)).idxOf c') settings fuel
    let c : ℕ → Conf K (St K (Fin (P + 1) → ℕ → V) X) := fun j => run (several t machine h) j (start sim ⟨own, y0, y0, mem⟩)
    let steps := (Finset.range n).filter fun j => ParBalance.Integrates (several t machine h) (c j)
    (∀ j ∈ steps, ParBalance.Unsettled t cell tolerance (c j).prob.own (c (j + 1)).sim.dt (ParBalance.values g cell (c j).prob.sol0)) →
    |ParBalance.total g (fun x v => r.volume x * stored x v) (c n).prob.sol0 - ParBalance.total g (fun x v => r.volume x * stored x v) y0
        - ∑ j ∈ steps, (c (j + 1)).sim.dt * ParBalance.total g (fun x _ =>
            Hybrid.supply (r.flow fun c => (List.ofFn cell).idxOf c) e (c j).prob.own (c (j + 1)).sim.dt
              (ParBalance.values g cell (c (j + 1)).prob.sol0) x) (c (j + 1)).prob.sol0|
      ≤ ∑ j ∈ steps, |(c (j + 1)).sim.dt| * ∑ k, tolerance / weight (cell k) := by
  obtain ⟨⟨d, _, _, _, _, v, -⟩, -⟩ := hM.2 own 0 mem y0
  exact ParBalance.C169_balance_partial v hM.1 (Hybrid.performs_with (fun p => same_values _ _) hM) hh hcont
    (Hybrid.balances (conserves hs _ e) _ fun own c v => by rw [storage_value hs, hcontent]; rfl) tolerance htol hset weight
    (fun own dt _ k => hweight own dt k) hpos (fun _ _ _ k => hvol k) sim own mem y0 n

end Verif.Reservoir
