import Verif.Overlap.Spec
import Mathlib.Data.List.FinRange

/-
The border list and the black list of cells: opm/simulators/linalg/elementborderlistfromgrid.hh.

How a grid communicates is defined by Dune: in the interface which is used here (`InteriorBorder_All_Interface`, backwards) each
process which has a copy of a cell of another one sends its data to the owner, in an order which both processes know.  All data
from one process is in one buffer, from which each call of `scatter` takes what belongs to its cell.
-/

set_option autoImplicit false

namespace Verif.Overlap

open Verif.GlobalIdx

variable {P : ℕ} {G : Type} [DecidableEq G]

/-- A distributed grid with the neighbours of its cells (`ibegin`, `iend` and `outside`), the cells of `p` of which `q` has copies, in
the order of the communication, and the columns of the rows of the native matrices. -/
structure Mesh (P : ℕ) (G : Type) extends Grid P G where
  neighbors : G → List G
  shared : Fin P → Fin P → List G
  cols : Fin P → ℕ → List ℕ

/-- What the grid manager guarantees: each process has a cell at most once, a cell is at its owner if it is anywhere, processes are
neighbours of each other, and the cells which are communicated are those of `p` of which `q` has copies. -/
structure Mesh.Valid (m : Mesh P G) : Prop where
  nodup : ∀ p, (m.cells p).Nodup
  owned : ∀ p, ∀ c ∈ m.cells p, c ∈ m.cells (m.owner c)
  reciprocal : ∀ p q, (∃ c ∈ m.cells q, m.owner c = p) → ∃ c ∈ m.cells p, m.owner c = q
  sharedNodup : ∀ p q, (m.shared p q).Nodup
  shared : ∀ p q c, c ∈ m.shared p q ↔ q ≠ p ∧ m.owner c = p ∧ c ∈ m.cells q
  cols : ∀ p i, ∀ j ∈ m.cols p i, j < (m.cells p).length

/-- `map_.index(e)` -/
def Mesh.index (m : Mesh P G) (p : Fin P) (c : G) : ℕ := (m.cells p).idxOf c

/-- The loop at the start of `scatter` (opm/simulators/linalg/elementborderlistfromgrid.hh:104-115): does an interior neighbour exist? -/
def Mesh.isInteriorNeighbor (m : Mesh P G) (p : Fin P) (c : G) : Prop :=
  ∃ n ∈ m.neighbors c, n ∈ m.cells p ∧ m.owner n = p

instance (m : Mesh P G) (p : Fin P) (c : G) : Decidable (m.isInteriorNeighbor p c) :=
  inferInstanceAs (Decidable (∃ n ∈ m.neighbors c, _))

/-- The data which `gather` of both handles writes for all cells of `p` on the process `q` (opm/simulators/linalg/elementborderlistfromgrid.hh:92-98,
186-191).  The two words of a cell are a pair here. -/
def Mesh.gather (m : Mesh P G) (q p : Fin P) : List (Fin P × ℕ) := (m.shared p q).map fun c => (q, m.index q c)

/-- `BorderListHandle_::scatter` (opm/simulators/linalg/elementborderlistfromgrid.hh:100-137) for the cells of one buffer: it does not read the data of a cell
which it discards.  An empty buffer cannot be read; the call has no effect then. -/
def Mesh.scatterBorder (m : Mesh P G) (p : Fin P) : List (Fin P × ℕ) → List G → List (BorderIndex P)
  | _, [] => []
  | buf, c :: cs =>
    if m.isInteriorNeighbor p c then
      match buf with
      | w :: buf => ⟨m.index p c, w.2, w.1, 1⟩ :: m.scatterBorder p buf cs
      | [] => m.scatterBorder p [] cs
    else m.scatterBorder p buf cs

/-- The border list of a process (opm/simulators/linalg/elementborderlistfromgrid.hh:225-228).  The order of the processes does not matter. -/
def Mesh.borderList (m : Mesh P G) (p : Fin P) : List (BorderIndex P) :=
  (List.finRange P).flatMap fun q => m.scatterBorder p (m.gather q p) (m.shared p q)

/-- `blh.peerSet()` (opm/simulators/linalg/elementborderlistfromgrid.hh:126,235-236) -/
def Mesh.peerSet (m : Mesh P G) (p : Fin P) : List (Fin P) :=
  (List.finRange P).filter fun q => ∃ e ∈ m.borderList p, e.peerRank = q

/-- `PeerBlackListHandle_` (opm/simulators/linalg/elementborderlistfromgrid.hh:193-210,230-233), of which the lists of the peers are stored
(opm/simulators/linalg/elementborderlistfromgrid.hh:235-239) -/
def Mesh.peerBlackList (m : Mesh P G) (p q : Fin P) : List (ℕ × ℕ) :=
  if q ∈ m.peerSet p then
    (m.shared p q).zipWith (fun c w => (w.2, m.index p c)) (m.gather q p)
  else []

/-- What `ElementBorderListFromGrid` (opm/simulators/linalg/elementborderlistfromgrid.hh:68-76,221-240) makes of the grid -/
def Mesh.native (m : Mesh P G) (p : Fin P) : Native P :=
  { blackList := (m.cells p).map fun c => decide (m.owner c ≠ p)
    borderList := m.borderList p
    cols := m.cols p
    blackPeers := m.peerSet p
    peerBlackList := m.peerBlackList p }

end Verif.Overlap
