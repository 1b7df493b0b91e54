import Verif.Mpi.Rounds

/-
Exchanging values which are attached to entities of the grid: opm/models/parallel/gridcommhandles.hh.

How a grid communicates is defined by Dune: for each process and each peer there is a list of entities which is the same on both
sides; a process gathers the values of all of them for all peers and sends them, then receives the messages of its peers and
scatters them, in any order of processes.
-/

set_option autoImplicit false

namespace Verif.GridComm

open Verif.Mpi

variable {P : ℕ} {E K : Type}

/-- What a grid provides for a communication: the processes which a process exchanges data with, the entities of which values are
sent from `p` to `q`, and the indices of the entities on each process (`mapper_.index`). -/
structure Interface (P : ℕ) (E : Type) where
  peers : Fin P → List (Fin P)
  sent : Fin P → Fin P → List E
  index : Fin P → E → ℕ

/-- `gather` of all handles (opm/models/parallel/gridcommhandles.hh:78-83,133-138,194-199,255-260) for all entities which are sent -/
def gather (index : E → ℕ) (l : List E) (container : ℕ → K) : List K := l.map fun e => container (index e)

/-- `GridCommHandleSum::scatter` (opm/models/parallel/gridcommhandles.hh:85-93) for all entities which are received -/
def scatterSum [Add K] (index : E → ℕ) (l : List (E × K)) (container : ℕ → K) : ℕ → K :=
  l.foldl (fun c x => Function.update c (index x.1) (c (index x.1) + x.2)) container

/-- `GridCommHandleGhostSync::scatter` (opm/models/parallel/gridcommhandles.hh:140-145) -/
def scatterGhostSync (index : E → ℕ) (l : List (E × K)) (container : ℕ → K) : ℕ → K :=
  l.foldl (fun c x => Function.update c (index x.1) x.2) container

/-- `std::max` -/
def stdMax [LinearOrder K] (a b : K) : K := if a < b then b else a

/-- `std::min` -/
def stdMin [LinearOrder K] (a b : K) : K := if b < a then b else a

/-- `GridCommHandleMax::scatter` (opm/models/parallel/gridcommhandles.hh:201-208) -/
def scatterMax [LinearOrder K] (index : E → ℕ) (l : List (E × K)) (container : ℕ → K) : ℕ → K :=
  l.foldl (fun c x => Function.update c (index x.1) (stdMax (c (index x.1)) x.2)) container

/-- `GridCommHandleMin::scatter` (opm/models/parallel/gridcommhandles.hh:262-269) -/
def scatterMin [LinearOrder K] (index : E → ℕ) (l : List (E × K)) (container : ℕ → K) : ℕ → K :=
  l.foldl (fun c x => Function.update c (index x.1) (stdMin (c (index x.1)) x.2)) container

/-- `gridView.communicate(handle, …)` with the given `scatter` -/
def communicate (g : Interface P E) (scatter : (E → ℕ) → List (E × K) → (ℕ → K) → ℕ → K) :
    Fin P → List (Op (Fin P) (ℕ → K) (List K)) :=
  program g.peers [{ send := fun p q c => gather (g.index p) (g.sent p q) c
                     recv := fun q p m c => scatter (g.index q) ((g.sent p q).zip m) c }]

end Verif.GridComm
