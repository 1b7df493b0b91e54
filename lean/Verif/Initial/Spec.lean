import Verif.Initial.Model
import Verif.GridComm.Props

/-
A grid which is spread over processes.
-/

set_option autoImplicit false

namespace Verif.Initial

open Verif.Mpi Verif.GridComm

/-- The cells `cells` are spread over `P` processes: each of them is in the interior of the part of its owner, which has it, and copies
of it may be elsewhere (`held p` are the cells which the process `p` has). `parts c` are the primary degrees of freedom of the cell and
what the problem or the local residual says about them; `view p c` is what the process `p` sees of the cell. `ents p` are the degrees of
freedom of the process `p`, `inner p` those of them which are in the interior or on its border; those of the interior cells are among
them, and there are no others. -/
structure Spread {P : ℕ} {C E V : Type} (cells : List C) (parts : C → List (E × V)) (owner : C → Fin P) (held : Fin P → List C)
    (view : Fin P → C → Element V) (face : Interface P E) (ents inner : Fin P → Set E) : Prop where
  nodup : cells.Nodup
  heldNodup : ∀ p, (held p).Nodup
  heldCell : ∀ p, ∀ c ∈ held p, c ∈ cells
  owned : ∀ c ∈ cells, c ∈ held (owner c)
  interior : ∀ p, ∀ c ∈ held p, (view p c).interior = true ↔ owner c = p
  dofs : ∀ p, ∀ c ∈ held p, owner c = p → (view p c).dofs = (parts c).map fun x => (face.index p x.1, x.2)
  proper : Proper face ents
  innerHas : ∀ p, inner p ⊆ ents p
  innerParts : ∀ c ∈ cells, ∀ x ∈ parts c, x.1 ∈ inner (owner c)

/-- The interface `InteriorBorder_InteriorBorder`: values are exchanged between the processes which have the degree of freedom in their
interior or on its border. -/
def Border {P : ℕ} {E : Type} (face : Interface P E) (inner : Fin P → Set E) : Prop :=
  ∀ p q e, e ∈ face.sent p q ↔ p ≠ q ∧ e ∈ inner p ∧ e ∈ inner q

open Classical in
/-- The residual at a degree of freedom: what all cells contribute to it -/
noncomputable def total {C E V : Type} [AddCommMonoid V] (cells : List C) (parts : C → List (E × V)) (e : E) : V :=
  (cells.map fun c => (((parts c).filter fun x => x.1 = e).map Prod.snd).sum).sum

end Verif.Initial
