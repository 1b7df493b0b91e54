import Verif.Overlap.Model
import Verif.GlobalIdx.Spec
import Verif.Sync.Spec

/-
Grids which are distributed by their cells, and what the overlap of the processes should be.
-/

set_option autoImplicit false

namespace Verif.Overlap

open Verif.GlobalIdx

variable {P : ℕ} {G : Type}

/-- The native index `i` is not black-listed. -/
def Native.IsLocal (d : Native P) (i : ℕ) : Prop := d.blackList[i]? = some false

/-- The row `i` is at most `k` steps away, along entries of the local part of the matrix, from a row which is shared with the process
`r` according to the border list. -/
inductive Near (d : Native P) (r : Fin P) : ℕ → ℕ → Prop where
  | border (e : BorderIndex P) (h : e ∈ d.borderList) (hr : e.peerRank = r) (hl : d.IsLocal e.localIdx) : Near d r 0 e.localIdx
  | step (k i j : ℕ) (h : Near d r k i) (hj : j ∈ d.cols i) (hl : d.IsLocal j) : Near d r (k + 1) j

/-- The least number of steps is `k`. -/
def Dist (d : Native P) (r : Fin P) (k i : ℕ) : Prop := Near d r k i ∧ ∀ k' < k, ¬Near d r k' i

/-- A grid distributed by its cells: each process has the cells it owns and copies of some cells of other processes.  `cells p` lists
the cells of the process `p` in the order of their native indices. -/
structure Grid (P : ℕ) (G : Type) where
  owner : G → Fin P
  cells : Fin P → List G

/-- What is passed to the constructors of the overlaps fits to the grid.
* A process has a cell at most once, and a cell which some process has is also at its owner.
* If a process has copies of cells of another one, the other one has copies of its cells.
* Copies are black-listed.
* The border list of a process lists its own cells of which others have copies, with the distance one, as
  `ElementBorderListFromGrid` does (opm/simulators/linalg/elementborderlistfromgrid.hh:100-137); see `Verif.Overlap.Border`.
* The lists of the cells which are black-listed by a peer are those which the peer has copies of.
* The columns of the matrix are native indices. -/
structure Valid (g : Grid P G) (d : Fin P → Native P) : Prop where
  nodup : ∀ p, (g.cells p).Nodup
  owned : ∀ p, ∀ c ∈ g.cells p, c ∈ g.cells (g.owner c)
  reciprocal : ∀ p q, (∃ c ∈ g.cells q, g.owner c = p) → ∃ c ∈ g.cells p, g.owner c = q
  black : ∀ p, (d p).blackList.length = (g.cells p).length ∧
    ∀ i c, (g.cells p)[i]? = some c → ((d p).IsLocal i ↔ g.owner c = p)
  border : ∀ p e, e ∈ (d p).borderList ↔ e.borderDistance = 1 ∧ e.peerRank ≠ p ∧
    ∃ c, g.owner c = p ∧ (g.cells p)[e.localIdx]? = some c ∧ (g.cells e.peerRank)[e.peerIdx]? = some c
  borderNodup : ∀ p, (d p).borderList.Nodup
  blackPeers : ∀ p, (d p).blackPeers = (d p).neighborPeers
  peerBlack : ∀ p q x, x ∈ (d p).peerBlackList q ↔ q ≠ p ∧
    ∃ c, g.owner c = p ∧ (g.cells p)[x.2]? = some c ∧ (g.cells q)[x.1]? = some c
  cols : ∀ p i, ∀ j ∈ (d p).cols i, j < (g.cells p).length

/-- The process `r` should have a copy of the cell `c`: it owns the cell, or the cell is less than `overlapSize` steps away, along
entries of the matrix between cells of its owner, from a cell of this owner of which the process `r` has a copy in its grid. -/
def InOverlap (g : Grid P G) (d : Fin P → Native P) (overlapSize : ℕ) (r : Fin P) (c : G) : Prop :=
  g.owner c = r ∨ ∃ i k, k < overlapSize ∧ (g.cells (g.owner c))[i]? = some c ∧ Near (d (g.owner c)) r k i

/-- The cells of the grid. -/
def Grid.all (g : Grid P G) : Set G := {c | c ∈ g.cells (g.owner c)}

/-- What the processes should have set up, given the numbers of all cells.
* The peers are the processes of the border list.
* A process has the cells which should be in its overlap and no others, in one to one correspondence with its domestic indices.
* The process which owns a cell is its master everywhere.
* The own cells of the grid of a process have their domestic indices, also copies of cells of others do, from the black list.
* The border distance of a copy is one more than the number of steps to the next cell which the grid of the process has a copy of.
* Peers agree about the number of cells which they share. -/
structure Constructed (g : Grid P G) (d : Fin P → Native P) (overlapSize : ℕ) (number : G → ℕ) (s : Fin P → Process P) : Prop where
  peers : ∀ p, (s p).foreign.peerSet = (d p).neighborPeers
  holds : ∀ p, ∀ c ∈ g.all, Sync.Holds ((s p).answers (d p) p) (number c) ↔ InOverlap g d overlapSize p c
  index : ∀ p n i, ((s p).answers (d p) p).globalToDomestic n = some i ↔
    i < ((s p).answers (d p) p).numDomestic ∧ ((s p).answers (d p) p).domesticToGlobal i = n
  cell : ∀ p, ∀ i < ((s p).answers (d p) p).numDomestic, ∃ c ∈ g.all,
    ((s p).answers (d p) p).domesticToGlobal i = number c ∧ ((s p).answers (d p) p).masterRank i = g.owner c
  native : ∀ p i l, ((s p).answers (d p) p).nativeToDomestic i = some l ↔ l < ((s p).answers (d p) p).numDomestic ∧
    ∃ c, (g.cells p)[i]? = some c ∧ g.owner c = p ∧ ((s p).answers (d p) p).domesticToGlobal l = number c
  back : ∀ p i l, ((s p).answers (d p) p).domesticToNative l = some i ↔ ((s p).answers (d p) p).nativeToDomestic i = some l
  copies : ∀ p i l, (s p).domestic.blackMap i = some l ↔ l < ((s p).answers (d p) p).numDomestic ∧
    ∃ c, (g.cells p)[i]? = some c ∧ g.owner c ≠ p ∧ ((s p).answers (d p) p).domesticToGlobal l = number c
  copied : ∀ p i c, (g.cells p)[i]? = some c → g.owner c ≠ p → ∃ l, (s p).domestic.blackMap i = some l
  distance : ∀ p, ∀ i < ((s p).answers (d p) p).numDomestic, ∀ c ∈ g.all, ((s p).answers (d p) p).domesticToGlobal i = number c →
    ∀ m, (s p).domestic.borderDistance i = some m ↔ (g.owner c = p ∧ m = 0) ∨
      (g.owner c ≠ p ∧ ∃ j k, (g.cells (g.owner c))[j]? = some c ∧ Dist (d (g.owner c)) p k j ∧ m = k + 1)
  sizes : ∀ p, ∀ q ∈ (d p).neighborPeers,
    ((s p).domestic.withPeer q).length = (((s q).answers (d q) q).foreignOverlap p).length

end Verif.Overlap
