import Verif.Balance.Spec
import Verif.Flux.Boundary
import Mathlib.Algebra.BigOperators.Group.Finset.Basic
import Mathlib.Data.Fintype.BigOperators

set_option autoImplicit false
set_option linter.unusedSectionVars false
/-
Vocabulary for C168: states in which nothing should happen.  The simulation is that of `Verif.Balance`, the fluxes are those of
`Verif.Flux`; nothing is modelled anew here.
-/
namespace Verif.Rest

open Verif.TimeLoop Verif.Balance Verif.Flux

variable {K PV W M C X : Type} {m : ℕ} [Field K] [LinearOrder K] [AddCommGroup M] [Module K M]

/-- In the state `s` as much of each conserved quantity leaves each cell to its neighbours and over the boundary as sources supply. -/
def Stationary (f : Physics K PV M C X m) (s : ℕ → PV) : Prop :=
  ∀ own dt, ∀ i < f.numCells, ∀ k : Fin m,
    ((f.nb i).map fun e => f.area e.2 * (f.flux own dt s i e.1 e.2).1 k).sum
      + (((f.boundary own dt s).filter fun b => b.cell = i ∧ b.none = false).map fun b => b.area * b.flux.1 k).sum
    = f.volume i * (f.source own dt s i).1 k

/-- The linear solver answers with `zero` wherever it is asked for the solution of a system whose right hand side vanishes. -/
def ZeroForZero (f : Physics K PV M C X m) (q : Numerics K PV W M X m) (zero : W) : Prop :=
  ∀ own attempt dt old it s u finite, (∀ i < f.numCells, ∀ k : Fin m, imbalance f own dt s old i k = 0) →
    (q.base own attempt dt old).solve it s = .update u finite → ∀ i < f.numCells, u i = zero

/-- The update `zero` does not change the unknowns of `s`. -/
def NoChange (f : Physics K PV M C X m) (q : Numerics K PV W M X m) (zero : W) (s : ℕ → PV) : Prop :=
  ∀ own attempt dt old, ∀ i < f.numCells, (q.base own attempt dt old).updatePrimaryVariables i (s i) zero = s i

/-- At the state `s` there are no exceptions, and the linear solver finds a solution; at least two evaluations of the condition of the
Newton loop and one attempt per time step are allowed. -/
structure Works (f : Physics K PV M C X m) (q : Numerics K PV W M X m) (s : ℕ → PV) : Prop where
  linearize : ∀ own attempt dt it, q.failure own attempt dt s it s = none
  beginIteration : ∀ own attempt dt it, (q.base own attempt dt s).beginIterationOk it = true
  endIteration : ∀ own attempt dt it, (q.base own attempt dt s).endIterationOk it = true
  solve : ∀ own attempt dt it, ∃ u, (q.base own attempt dt s).solve it s = .update u true
  maxError : ∀ own attempt dt, 0 ≤ (q.base own attempt dt s).maxError
  tolerance : 0 ≤ q.tolerance
  fuel : 2 ≤ q.fuel
  attempts : 1 ≤ q.maxFails

/-- A face of the boundary at which a fluid is prescribed: its cell, area, transmissibility, height, and for each of the phases the
prescribed fluid and what it contains of the conserved quantities. -/
structure Opening (K ι : Type) (m : ℕ) where
  cell : ℕ
  area : K
  trans : K
  z : K
  fluid : ι → Prescribed K
  content : ι → Fin m → K

/-- A reservoir with the phases `ι`, whose fluxes are those of the transmissibility based flux module: in a cell `i` with the unknowns `v`
a phase `p` has the properties `cell p i v` and contains `content p v k` of quantity `k` per volume. -/
structure Reservoir (K PV C ι : Type) (m : ℕ) where
  numCells : ℕ
  nb : ℕ → List (ℕ × C)
  area : C → K
  volume : ℕ → K
  trans : C → K
  storage : ℕ → PV → Fin m → K
  cell : ι → ℕ → PV → Cell K
  content : ι → PV → Fin m → K
  openings : List (Opening K ι m)

variable {ι : Type} [Fintype ι]

/-- What leaves the reservoir over an opening with phase `p`: the content is that of the side with the higher pressure, as in the free-flow
boundary rates of the models. -/
def Reservoir.openingFlux (r : Reservoir K PV C ι m) (g : K) (s : ℕ → PV) (o : Opening K ι m) (p : ι) (k : Fin m) : K :=
  transBoundaryFlux g o.trans o.z (r.cell p o.cell (s o.cell)) (o.fluid p) *
    (if (r.cell p o.cell (s o.cell)).pressure < (o.fluid p).pressure then o.content p k else r.content p (s o.cell) k)

/-- There are no sources; the boundary is closed apart from the openings; derivatives do not matter. -/
def Reservoir.physics (r : Reservoir K PV C ι m) (g : K) : Physics K PV M C X m :=
  { numCells := r.numCells, nb := r.nb, area := r.area, volume := r.volume
    storage := fun i v => (r.storage i v, 0)
    flux := fun _ _ s i j c =>
      (fun k => ∑ p, transContentFlux g (r.trans c) (r.cell p i (s i)) (r.cell p j (s j)) (r.content p (s i) k) (r.content p (s j) k), 0)
    source := fun _ _ _ _ => (0, 0)
    boundary := fun _ _ s => r.openings.map fun o =>
      { cell := o.cell, none := false, area := o.area
        flux := (fun k => ∑ p, r.openingFlux g s o p k, 0) } }

/-- Every phase is at rest: between neighbours, and between cells and openings next to them, pressures differ by the weight of the fluid,
for which the mean of the densities counts. -/
structure Reservoir.Hydrostatic (r : Reservoir K PV C ι m) (g : K) (s : ℕ → PV) : Prop where
  cells : ∀ p, ∀ i < r.numCells, ∀ e ∈ r.nb i, (r.cell p e.1 (s e.1)).pressure - (r.cell p i (s i)).pressure =
    ((r.cell p i (s i)).density + (r.cell p e.1 (s e.1)).density) / 2 * (g * ((r.cell p e.1 (s e.1)).z - (r.cell p i (s i)).z))
  openings : ∀ p, ∀ o ∈ r.openings, (o.fluid p).pressure - (r.cell p o.cell (s o.cell)).pressure =
    ((r.cell p o.cell (s o.cell)).density + (o.fluid p).density) / 2 * (g * (o.z - (r.cell p o.cell (s o.cell)).z))

end Verif.Rest
