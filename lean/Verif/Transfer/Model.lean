import Mathlib.Data.Finset.Basic
import Mathlib.Data.Finset.Image
import Mathlib.Algebra.Order.Ring.Rat

set_option autoImplicit false

/-
Data on a grid which is refined and coarsened.

Models `opm/models/discretization/common/restrictprolong.hh` (`CopyRestrictProlong`).  Which cells are refined and coarsened is up to
DUNE: a refined cell is replaced by its sons, the data of the father being prolonged to each of them; sons which are coarsened are replaced by
their father, the data of each son being restricted, with `initialize` for the first son only.
-/
namespace Verif.Transfer

/-- A cell of the hierarchy: the numbers of the sons on the way to it, last first. -/
abbrev Cell := List ℕ

/-- The persistent container: the data of a cell, if it has been set. -/
abbrev Container (V : Type) := Cell → Option V

variable {V : Type}

/-- `container_[ a ] = container_[ b ]`. -/
def copy (d : Container V) (a b : Cell) : Container V := fun c => if c = a then d b else d c

/-- `restrictLocal`, opm/models/discretization/common/restrictprolong.hh lines 69-79. -/
def restrictLocal (d : Container V) (father son : Cell) (first : Bool) : Container V :=
  if first then copy d father son else d

/-- `prolongLocal`, opm/models/discretization/common/restrictprolong.hh lines 90-99. -/
def prolongLocal (d : Container V) (father son : Cell) : Container V := copy d son father

/-- The sons of a cell. -/
def sons (n : ℕ) (f : Cell) : List Cell := (List.range n).map fun k => k :: f

/-- Refining a cell into `n` sons. -/
def refine (n : ℕ) (d : Container V) (f : Cell) : Container V := (sons n f).foldl (fun d s => prolongLocal d f s) d

/-- Coarsening the `n` sons of a cell. -/
def coarsen (n : ℕ) (d : Container V) (f : Cell) : Container V :=
  (List.range n).foldl (fun d k => restrictLocal d f (k :: f) (k == 0)) d

/-- One cell is refined, or the sons of a cell are coarsened. -/
inductive Event
  | refine (n : ℕ) (f : Cell)
  | coarsen (n : ℕ) (f : Cell)

/-- The leaf cells and the data. -/
structure Grid (V : Type) where
  leaves : Finset Cell
  data : Container V

/-- An event, if it is possible. -/
def step (g : Grid V) : Event → Option (Grid V)
  | .refine n f =>
    if f ∈ g.leaves ∧ 0 < n then some ⟨g.leaves.erase f ∪ (sons n f).toFinset, refine n g.data f⟩ else none
  | .coarsen n f =>
    if (∀ s ∈ sons n f, s ∈ g.leaves) ∧ 0 < n then some ⟨insert f (g.leaves \ (sons n f).toFinset), coarsen n g.data f⟩ else none

/-- A sequence of events. -/
def run (g : Grid V) : List Event → Option (Grid V)
  | [] => some g
  | e :: es => (step g e).bind fun g => run g es

/-- `addToLoadBalancer`, opm/models/discretization/common/restrictprolong.hh lines 121-125, does nothing: a cell which is moved to this
process has the data which the container had for it, not that of the process it comes from. -/
def receive (here _there : Grid V) (c : Cell) : Grid V := ⟨insert c here.leaves, here.data⟩

end Verif.Transfer
