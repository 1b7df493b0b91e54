import Verif.ParSim.Props

/-
Vocabulary for the balance of a conserved quantity in simulations on several processes.
-/

set_option autoImplicit false

namespace Verif.ParBalance

open Verif.TimeLoop Verif.ParNewton Verif.ParSolve.Block Verif.ParSim Verif.Overlap
open Verif.ParSolve (Enumerates Wide Steps Covered mem_all steps_mem wide_one row_enumerates)

variable {P N E : ℕ} {G K V X : Type}

/-- What there is of the conserved quantity in a cell, what flows from one cell to another per unit of time, and what sources and the
boundary supply to a cell per unit of time.  Flows and supplies can depend on the state of the problem, the time step size and the whole
solution. -/
structure Law (G K V X : Type) where
  content : G → V → K
  outflow : X → K → (G → V) → G → G → K
  supply : X → K → (G → V) → G → K

/-- The equation number `e` of each cell is the balance of the conserved quantity.  Nothing is said about the other equations.
* What flows out of a cell flows into another one.
* The cells which exchange something with a cell are those of its stencil, they are cells of the grid, and see the cell as well.
* The residual is the rate by which the content of the cell has changed plus what flows out of it minus what is supplied; it is not
  defined for time steps of size zero. -/
structure Balances [Field K] (law : Law G K V X) (task : Task G E K V X) (e : Fin E) (cells : Set G) : Prop where
  antisymmetric : ∀ own dt Y c c', law.outflow own dt Y c' c = -law.outflow own dt Y c c'
  nodup : ∀ own dt old c, c ∈ cells → ((task.equations own dt old).stencil c).Nodup
  inside : ∀ own dt old c, c ∈ cells → ∀ c' ∈ (task.equations own dt old).stencil c, c' ∈ cells
  symmetric : ∀ own dt old c c', c ∈ cells → c' ∈ cells →
    (c' ∈ (task.equations own dt old).stencil c ↔ c ∈ (task.equations own dt old).stencil c')
  residual : ∀ own dt old c Y r J, c ∈ cells → (task.equations own dt old).row c Y = some (r, J) → dt ≠ 0 ∧
    r e = (law.content c (Y c) - law.content c (old c)) / dt
      + (((task.equations own dt old).stencil c).map (law.outflow own dt Y c)).sum - law.supply own dt Y c

/-- The sum over the own cells of all processes, as `globalStorage` does it
(opm/models/discretization/common/fvbasediscretization.hh lines 942-985): every process adds up its own cells, and the results are
added up. -/
def total [AddCommMonoid K] (g : Grid (P + 1) G) (f : G → V → K) (y : Fin (P + 1) → ℕ → V) : K :=
  ∑ p, ∑ i ∈ Finset.range (g.cells p).length, ((g.cells p)[i]?).elim 0 fun c => if g.owner c = p then f c (y p i) else 0

open Classical in
/-- The solution as a function of cells: the values which their owners have. -/
noncomputable def values [Inhabited V] (g : Grid (P + 1) G) (cell : Fin N → G) (y : Fin (P + 1) → ℕ → V) : G → V :=
  onCells cell fun k => y (g.owner (cell k)) ((g.cells (g.owner (cell k))).idxOf (cell k))

/-- In the configuration `c` the next thing that happens is a time integration which succeeds. -/
def Integrates {σ : Type} [Field K] [LinearOrder K] (problem : Problem K σ) (c : Conf K σ) : Prop :=
  c.pc = .integrate ∧ (step problem c).pc = .endStep

/-- The solution `Y` does not yet meet the tolerance, in some equation of some cell, as the solution of a step of size `dt` which begins at `Y`. -/
def Unsettled [Field K] [LinearOrder K] (task : Task G E K V X) (cell : Fin N → G) (tolerance : K) (own : X) (dt : K) (Y : G → V) : Prop :=
  ∃ k l, ∀ r J, (task.equations own dt Y).row (cell k) Y = some (r, J) →
    tolerance < |r l * (task.equations own dt Y).weight (cell k) l|

end Verif.ParBalance
