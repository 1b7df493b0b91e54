import Verif.Volumes.Model
import Verif.GridComm.Props

/-
A grid which is spread over processes, and the volumes of its control volumes, without processes.
-/

set_option autoImplicit false

namespace Verif.Volumes

open Verif.Mpi Verif.GridComm

/-- A grid: its cells, and how each of them is divided into parts of control volumes. A control volume belongs to an entity (the cell
itself, or one of its vertices). -/
structure Grid (C E K : Type) where
  cells : List C
  parts : C → List (E × K)

open Classical in
/-- The volume of the control volume of `e`: all its parts in all cells -/
noncomputable def Grid.volume {C E K : Type} [AddCommMonoid K] (g : Grid C E K) (e : E) : K :=
  (g.cells.map fun c => (((g.parts c).filter fun x => x.1 = e).map Prod.snd).sum).sum

/-- The volume of the grid: all parts of all cells -/
def Grid.total {C E K : Type} [AddCommMonoid K] (g : Grid C E K) : K :=
  (g.cells.map fun c => ((g.parts c).map Prod.snd).sum).sum

/-- The grid is spread over `P` processes: each cell is in the interior of the part of its owner, which has it, and copies of it may
be elsewhere (`held p` are the cells which the process `p` has). `view p c` is what the process `p` sees of the cell `c`; the
primary degrees of freedom of a cell of the interior are those of its parts. `ents p` are the entities which the process has, and
`inner p` those which are in the interior or on its border: they send values to all others which have them (this is the interface
`InteriorBorder_All`). All entities of interior cells are among them. -/
structure Spread {P : ℕ} {C E K : Type} (g : Grid C E K) (owner : C → Fin P) (held : Fin P → List C) (view : Fin P → C → Element K)
    (face : Interface P E) (ents inner : Fin P → Set E) : Prop where
  nodup : g.cells.Nodup
  heldNodup : ∀ p, (held p).Nodup
  heldCell : ∀ p, ∀ c ∈ held p, c ∈ g.cells
  owned : ∀ c ∈ g.cells, c ∈ held (owner c)
  interior : ∀ p, ∀ c ∈ held p, (view p c).interior = true ↔ owner c = p
  dofs : ∀ p, ∀ c ∈ held p, owner c = p →
    (view p c).dofs.take (view p c).numPrimary = (g.parts c).map fun x => (face.index p x.1, x.2)
  proper : Proper face ents
  innerHas : ∀ p, inner p ⊆ ents p
  innerParts : ∀ c ∈ g.cells, ∀ x ∈ g.parts c, x.1 ∈ inner (owner c)
  sent : ∀ p q e, e ∈ face.sent p q ↔ p ≠ q ∧ e ∈ inner p ∧ e ∈ ents q

end Verif.Volumes
