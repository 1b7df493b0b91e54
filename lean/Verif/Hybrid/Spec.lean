import Verif.Hybrid.Model
import Verif.ParSim.Spec
import Verif.ThreadSim.Spec
import Mathlib.Data.List.Dedup

/-
What is to be solved on the whole grid, and several processes with threads which solve it.
-/

set_option autoImplicit false

namespace Verif.Hybrid

open Verif.Mpi Verif.Sync Verif.Overlap Verif.OverlapMatrix Verif.Newton Verif.Criteria Verif.ParNewton Verif.ParSolve.Block Verif.GridComm
open Verif.ParSim (Task Own Memory)
open Verif.ParSolve (Enumerates Wide)

variable {P N E : ℕ} {G C K V X : Type} [DecidableEq G] [Field K]

/-! ### The whole grid -/

/-- A cell and its neighbours -/
def stencil (f : Flow G C E K V X) (c : G) : List G := (c :: (f.neighbours c).map Prod.fst).dedup

/-- The residual of a cell: what flows out of it, plus the rate by which what it stores has changed, minus its source -/
def residual (f : Flow G C E K V X) (own : X) (dt : K) (old Y : G → V) (c : G) : Blk E K :=
  ((f.neighbours c).map fun e => f.area e.2 • (f.flux own dt c e.1 e.2 (Y c) (Y e.1)).1).sum
    + (f.volume c / dt) • ((f.storage own c (Y c)).1 - (f.storage own c (old c)).1) - f.volume c • (f.source own dt c (Y c)).1
    + ((f.boundary own dt c (Y c)).map fun b => if b.1 = true then 0 else b.2.1 • b.2.2.1).sum

/-- The derivative of the residual of the cell `c` with respect to the cell `c'` -/
def derivative (f : Flow G C E K V X) (own : X) (dt : K) (Y : G → V) (c c' : G) : Mat E K :=
  (if c' = c then
      ((f.neighbours c).map fun e => f.area e.2 • (f.flux own dt c e.1 e.2 (Y c) (Y e.1)).2).sum
        + (f.volume c / dt) • (f.storage own c (Y c)).2 - f.volume c • (f.source own dt c (Y c)).2
        + ((f.boundary own dt c (Y c)).map fun b => if b.1 = true then 0 else b.2.1 • b.2.2.2).sum
    else 0)
  -- what flows out of `c'` into `c`
  - ((f.neighbours c').map fun e => if e.1 = c then f.area e.2 • (f.flux own dt c' c e.2 (Y c') (Y c)).2 else 0).sum

/-- The task of solving this on the whole grid, where the derivatives of the equations of the cell `c` are those of the flow `row c`.  It cannot
be done where updating the intensive quantities of a cell fails. -/
def rowTask (f : Flow G C E K V X) (row : G → Flow G C E K V X) (settings : X → K → Memory K → Settings K) (fuel : ℕ) : Task G E K V X where
  equations own dt old :=
    { stencil := stencil f
      row := fun c Y => if ∀ c' ∈ stencil f c, f.works own dt c' (Y c') = true then
          some (residual f own dt old Y c, fun c' => if c' ∈ stencil f c then derivative (row c) own dt Y c c' else 0)
        else none
      volume := f.volume
      weight := f.weight own dt
      update := f.update own dt }
  settings := settings
  fuel := fuel

/-- The task of solving this on the whole grid -/
abbrev task (f : Flow G C E K V X) (settings : X → K → Memory K → Settings K) (fuel : ℕ) : Task G E K V X :=
  rowTask f (fun _ => f) settings fuel

/-- The flow `f'` differs from `f` by nothing but the derivatives of the fluxes. -/
structure SameValues (f f' : Flow G C E K V X) : Prop where
  neighbours : f'.neighbours = f.neighbours
  area : f'.area = f.area
  volume : f'.volume = f.volume
  storage : f'.storage = f.storage
  source : f'.source = f.source
  boundary : f'.boundary = f.boundary
  flux : ∀ own dt c c' k v v', (f'.flux own dt c c' k v v').1 = (f.flux own dt c c' k v v').1

/-! ### Several processes with threads -/

variable [LinearOrder K] [IsStrictOrderedRing K]

/-- The machine `M` runs the code on the grid `g`, for the state `own` of the problem, the time step size `dt`, and the solutions `y`
of the previous time level.  As `Verif.ParNewton.Runs`, but the linear system of a process is what its linearizer leaves behind for the
cells which the process has, whichever of the two it is and however its threads are scheduled.  The process `p` computes the fluxes of `fp p`. -/
structure Runs (f : Flow G C E K V X) (fp : Fin (P + 1) → Flow G C E K V X) (set : Settings K) (own : X) (dt : K) (y : Fin (P + 1) → ℕ → V) (g : Grid (P + 1) G)
    (d : Fin (P + 1) → Overlap.Native (P + 1)) (overlapSize : ℕ) (o : Fin (P + 1) → Sync.Overlap (P + 1))
    (black : Fin (P + 1) → ℕ → Option ℕ) (face : Interface (P + 1) G) (M : Machine P E K V) : Prop where
  numGridDof : ∀ p, (M.env p).numGridDof = (g.cells p).length
  numTotalDof : ∀ p, (M.env p).numTotalDof = (g.cells p).length
  volume : ∀ p (i : ℕ) c, (g.cells p)[i]? = some c → (M.env p).volume i = f.volume c
  weight : ∀ p (i : ℕ) c, (g.cells p)[i]? = some c → ∀ j : Fin E, (M.env p).weight i j = f.weight own dt c j
  update : ∀ p (i : ℕ) c, (g.cells p)[i]? = some c → ∀ v w, (M.env p).updatePrimaryVariables i v w = f.update own dt c v w
  constraints : ∀ p (i : ℕ) c, (g.cells p)[i]? = some c → (M.env p).constraints i = none
  tolerance : ∀ p, (M.env p).tolerance = set.tolerance
  maxError : ∀ p, (M.env p).maxError = set.maxError
  maxIterations : ∀ p, (M.env p).maxIterations = set.maxIterations
  targetIterations : ∀ p, (M.env p).targetIterations = set.targetIterations
  beginOk : ∀ n, set.beginOk n = true ↔ ∀ p, (M.env p).beginIterationOk n = true
  endOk : ∀ n, set.endOk n = true ↔ ∀ p, (M.env p).endIterationOk n = true
  syncOverlap : ∀ n x, ∃ s, Reach (start (communicate face scatterGhostSync) x) s ∧ Finished s ∧ M.syncOverlap n x = s.state
  linearized : ∀ n p x a b, M.linearize n p x = some (a, b) →
    (∀ (i : ℕ) c, (g.cells p)[i]? = some c → f.works own dt c (x i) = true) ∧
    a.numRows = (g.cells p).length ∧ a.cols = (d p).cols ∧
    ∃ s, ThreadSim.Assembled (localNet (fp p) (g.cells p) own dt x (y p)) s ∧ b = s.res ∧ ∀ i, ∀ m ∈ a.cols i, a.value i m = s.mat i m
  failed : ∀ n p x, M.linearize n p x = none → ∃ (i : ℕ) (c : G), (g.cells p)[i]? = some c ∧ f.works own dt c (x i) = false
  residual : ∀ n b, ∃ R, Gives o (assignAddBorderProgram o) (fun p => fromNative (o p) (b p)) R ∧
    ∀ p i, M.residual n b p i = assignTo (o p) (part o R p) i
  solve : ∀ n a b, (∀ p, (a p).numRows = (g.cells p).length ∧ (a p).cols = (d p).cols) →
    ∃ m all, Assigned o black a m ∧ Parallel o d overlapSize m b set.solver all ∧
      M.solve n a b = match Krylov.apply all set.criterion with
        | .breakdown _ => none
        | .returned converged x _ => some (converged, fun p => assignTo (o p) (part o x p))

/-- The matrices of the processes: rows of own cells have the cell and its neighbours as columns, all of which the process has; rows have no
column twice. -/
structure Pattern (f : Flow G C E K V X) (g : Grid (P + 1) G) (cols : Fin (P + 1) → ℕ → List ℕ) : Prop where
  nodup : ∀ p n, (cols p n).Nodup
  range : ∀ p n, ∀ m ∈ cols p n, m < (g.cells p).length
  own : ∀ p (n : ℕ) c, (g.cells p)[n]? = some c → g.owner c = p →
    ∀ c', (c' = c ∨ ∃ k, (c', k) ∈ f.neighbours c) ↔ ∃ m ∈ cols p n, (g.cells p)[m]? = some c'

/-- The processes have set up their overlaps, and run the code in every time step and every iteration; the process `p` computes the fluxes
of `fp p`. -/
def PerformsWith (f : Flow G C E K V X) (fp : Fin (P + 1) → Flow G C E K V X) (settings : X → K → Memory K → Settings K) (g : Grid (P + 1) G) (cell : Fin N → G)
    (machine : X → K → Memory K → (Fin (P + 1) → ℕ → V) → Machine P E K V) : Prop :=
  Enumerates g cell ∧ ∀ own dt mem y,
    (∃ (d : Fin (P + 1) → Overlap.Native (P + 1)) (overlapSize : ℕ) (face : Interface (P + 1) G) (anyIdx : Fin (P + 1) → Domestic (P + 1))
      (s : System (Fin (P + 1)) (Process (P + 1)) (AnyMsg (P + 1))),
      Valid g d ∧ 0 < overlapSize ∧ Wide g d overlapSize (fun p => (d p).cols) (settings own dt mem).solver.order ∧
      Pattern f g (fun p => (d p).cols) ∧ Ghosts g face ∧
      Reach (start (construct d overlapSize) fun p => Process.start (d p) (anyIdx p)) s ∧ Finished s ∧
      Runs f fp (settings own dt mem) own dt y g d overlapSize (answers d s.state) (blackMaps s.state) face (machine own dt mem y)) ∧
    (machine own dt mem y).cache = fun _ _ => none

/-- The processes have set up their overlaps, and run the code in every time step and every iteration. -/
abbrev Performs (f : Flow G C E K V X) (settings : X → K → Memory K → Settings K) (g : Grid (P + 1) G) (cell : Fin N → G)
    (machine : X → K → Memory K → (Fin (P + 1) → ℕ → V) → Machine P E K V) : Prop :=
  PerformsWith f (fun _ => f) settings g cell machine

/-! ### Conservation -/

/-- What sources and the boundary supply to a cell per unit of time, of the quantity which is balanced by the equation `e` -/
def supply (f : Flow G C E K V X) (e : Fin E) (own : X) (dt : K) (Y : G → V) (c : G) : K :=
  f.volume c * (f.source own dt c (Y c)).1 e
    - ((f.boundary own dt c (Y c)).map fun b => if b.1 = true then 0 else b.2.1 * b.2.2.1 e).sum

/-- The equation number `e` conserves something: every connection of a cell to another one is, seen from the other one, a connection `rev k`
with the same area, and what flows out of one cell flows into the other one.  The grid consists of the cells `cells`.  Time steps of size
zero fail. -/
structure Conserves (f : Flow G C E K V X) (e : Fin E) (rev : C → C) (cells : Set G) : Prop where
  inside : ∀ c ∈ cells, ∀ n ∈ f.neighbours c, n.1 ∈ cells
  paired : ∀ c c', (((f.neighbours c).filter fun n => n.1 = c').map fun n => rev n.2).Perm
    (((f.neighbours c').filter fun n => n.1 = c).map Prod.snd)
  area : ∀ k, f.area (rev k) = f.area k
  antisymmetric : ∀ own dt c, ∀ n ∈ f.neighbours c, ∀ v v',
    (f.flux own dt n.1 c (rev n.2) v' v).1 e = -(f.flux own dt c n.1 n.2 v v').1 e
  step : ∀ own c v, f.works own 0 c v = false

end Verif.Hybrid
