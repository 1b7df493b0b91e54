import Verif.Overlap.Spec

/-
Grids whose degrees of freedom are their vertices, and what the overlap of the processes should be.
-/

set_option autoImplicit false

namespace Verif.Overlap.Vertex

open Verif.Mpi Verif.GlobalIdx

variable {P : ℕ} {G : Type}

/-- The constructor of `DomesticOverlapFromBCRSMatrix` (opm/simulators/linalg/domesticoverlapfrombcrsmatrix.hh:64-89) with those of
`ForeignOverlapFromBCRSMatrix` (opm/simulators/linalg/foreignoverlapfrombcrsmatrix.hh:67-143) and `GlobalIndices`, like
`Overlap.construct`, which is the case that `peers` are the neighbours.  The processes of the peer set of the foreign overlap
(`peerSet()`, opm/simulators/linalg/foreignoverlapfrombcrsmatrix.hh:260-261), over which the later parts loop, are given here; that
the foreign overlap has them is a part of the theorems. -/
def constructWith (d : Fin P → Native P) (overlapSize : ℕ) (peers : Fin P → List (Fin P)) (p : Fin P) :
    List (Op (Fin P) (Process P) (AnyMsg P)) :=
  (foreignProgram d overlapSize p).map liftForeign
    ++ (GlobalIdx.program overlapSize ((d p).part (peers p)) p).map liftGlobals
    ++ [.compute fun s => { s with domestic := Domestic.init (d p) s.globals }]
    ++ roundProgram peers (liftDomestic (buildDomesticOverlap d)) p
    ++ roundProgram (fun p => (d p).blackPeers) (liftDomestic fun _ => updateNativeToDomesticMap d) p

/-- What is passed to the constructors of the overlaps fits to a grid.  `verts p` lists the interior and border vertices of the
process `p` in the order of their native indices.
* A process has a vertex at most once.
* Other vertices, which are black-listed, have larger indices.
* The border list of a process lists its vertices which others have, too, with the distance zero, as `VertexBorderListFromGrid` does
  (opm/simulators/linalg/vertexborderlistfromgrid.hh:55-115).
* No lists of vertices which are black-listed by peers are made (there, too).
* The pattern of the matrix is symmetric. -/
structure Valid (verts : Fin P → List G) (d : Fin P → Native P) : Prop where
  nodup : ∀ p, (verts p).Nodup
  black : ∀ p, ∃ m, (d p).blackList = List.replicate (verts p).length false ++ List.replicate m true
  border : ∀ p e, e ∈ (d p).borderList ↔ e.borderDistance = 0 ∧ e.peerRank ≠ p ∧
    ∃ v, (verts p)[e.localIdx]? = some v ∧ (verts e.peerRank)[e.peerIdx]? = some v
  borderNodup : ∀ p, (d p).borderList.Nodup
  blackPeers : ∀ p, (d p).blackPeers = []
  symmetric : ∀ p, ∀ i < (verts p).length, ∀ j < (verts p).length, j ∈ (d p).cols i → i ∈ (d p).cols j

/-- The matrix of some process has an entry for the two vertices. -/
def Edge (verts : Fin P → List G) (d : Fin P → Native P) (u v : G) : Prop :=
  ∃ p i j, (verts p)[i]? = some u ∧ (verts p)[j]? = some v ∧ j ∈ (d p).cols i

/-- One gets to the vertex from a vertex of the process `r` in `k` steps along entries of the matrices of all processes. -/
inductive Walk (verts : Fin P → List G) (d : Fin P → Native P) (r : Fin P) : ℕ → G → Prop where
  | start (v : G) (h : v ∈ verts r) : Walk verts d r 0 v
  | step (k : ℕ) (u v : G) (h : Walk verts d r k u) (e : Edge verts d u v) : Walk verts d r (k + 1) v

/-- The vertex is `k` steps away from the vertices of the process `r`. -/
def Dist (verts : Fin P → List G) (d : Fin P → Native P) (r : Fin P) (k : ℕ) (v : G) : Prop :=
  Walk verts d r k v ∧ ∀ k' < k, ¬Walk verts d r k' v

/-- The process `r` should have a copy of the vertex: it is at most `overlapSize` steps away from the vertices of `r`. -/
def InOverlap (verts : Fin P → List G) (d : Fin P → Native P) (overlapSize : ℕ) (r : Fin P) (v : G) : Prop :=
  ∃ k ≤ overlapSize, Walk verts d r k v

/-- The vertices of the grid. -/
def all (verts : Fin P → List G) : Set G := {v | ∃ p, v ∈ verts p}

open Classical in
/-- The processes a process should communicate with, in increasing order: those whose overlaps contain some of its vertices. -/
noncomputable def peers (verts : Fin P → List G) (d : Fin P → Native P) (overlapSize : ℕ) (p : Fin P) : List (Fin P) :=
  (List.finRange P).filter fun q => q ≠ p ∧ ∃ v ∈ verts p, InOverlap verts d overlapSize q v

/-- The process has the vertex, and no process of lower rank does. -/
def IsLowest (verts : Fin P → List G) (v : G) (p : Fin P) : Prop := v ∈ verts p ∧ ∀ q, v ∈ verts q → p ≤ q

/-- What the processes should have set up, given the numbers of all vertices.
* The peers are the processes whose overlaps contain vertices of the process.
* A process has the vertices which should be in its overlap and no others, in one to one correspondence with its domestic indices.
* The process of the lowest rank which has a vertex is its master everywhere.
* The vertices of the process have their domestic indices.
* The border distance is the number of steps from the vertices of the process.
* Peers agree about the number of vertices in the overlap.
* No domestic indices are known for black-listed vertices. -/
structure Constructed (verts : Fin P → List G) (d : Fin P → Native P) (overlapSize : ℕ) (number : G → ℕ) (s : Fin P → Process P) :
    Prop where
  peers : ∀ p, (s p).foreign.peerSet = peers verts d overlapSize p
  holds : ∀ p, ∀ v ∈ all verts, Sync.Holds ((s p).answers (d p) p) (number v) ↔ InOverlap verts d overlapSize p v
  index : ∀ p n i, ((s p).answers (d p) p).globalToDomestic n = some i ↔
    i < ((s p).answers (d p) p).numDomestic ∧ ((s p).answers (d p) p).domesticToGlobal i = n
  vertex : ∀ p, ∀ i < ((s p).answers (d p) p).numDomestic, ∃ v ∈ all verts,
    ((s p).answers (d p) p).domesticToGlobal i = number v ∧ IsLowest verts v (((s p).answers (d p) p).masterRank i)
  native : ∀ p i l, ((s p).answers (d p) p).nativeToDomestic i = some l ↔ l < ((s p).answers (d p) p).numDomestic ∧
    ∃ v, (verts p)[i]? = some v ∧ ((s p).answers (d p) p).domesticToGlobal l = number v
  back : ∀ p i l, ((s p).answers (d p) p).domesticToNative l = some i ↔ ((s p).answers (d p) p).nativeToDomestic i = some l
  foreign : ∀ p q l, l ∈ ((s p).answers (d p) p).foreignOverlap q ↔ q ≠ p ∧ ∃ v, (verts p)[l]? = some v ∧
    InOverlap verts d overlapSize q v
  distance : ∀ p, ∀ i < ((s p).answers (d p) p).numDomestic, ∀ v ∈ all verts, ((s p).answers (d p) p).domesticToGlobal i = number v →
    ∀ m, (s p).domestic.borderDistance i = some m ↔ Dist verts d p m v
  sizes : ∀ p, ∀ q ∈ Vertex.peers verts d overlapSize p,
    ((s p).domestic.withPeer q).length = (((s q).answers (d q) q).foreignOverlap p).length
  noBlack : ∀ p i, (s p).domestic.blackMap i = none

end Verif.Overlap.Vertex
