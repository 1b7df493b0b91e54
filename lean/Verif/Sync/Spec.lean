import Verif.Sync.Model
import Mathlib.Algebra.BigOperators.Group.Finset.Basic

/-
Copies of entries, and what overlaps have to guarantee.
-/

set_option autoImplicit false

namespace Verif.Sync

variable {P : ℕ} {K : Type}

/-- The process has a copy of the unknown with the global index `g`. -/
def Holds (o : Overlap P) (g : ℕ) : Prop := ∃ i < o.numDomestic, o.domesticToGlobal i = g

/-- `x` is the value of the copy which the process has of the unknown `g`. -/
def IsCopy (o : Overlap P) (v : ℕ → K) (g : ℕ) (x : K) : Prop := ∃ i < o.numDomestic, o.domesticToGlobal i = g ∧ v i = x

/-- What the overlaps of all processes have to guarantee.
* Peers are mutual and different from the process itself.
* Domestic and global indices are in one to one correspondence.
* An index is listed at most once in the overlap with a peer, and the peer has a copy of it.
* All processes agree on the master of an unknown, and it is the process itself or a peer which has the process in its foreign
  overlap for this unknown. -/
structure Coherent (o : Fin P → Overlap P) : Prop where
  nodup : ∀ p, (o p).peerSet.Nodup
  symm : ∀ p q, q ∈ (o p).peerSet ↔ p ∈ (o q).peerSet
  irrefl : ∀ p, p ∉ (o p).peerSet
  index : ∀ p g i, (o p).globalToDomestic g = some i ↔ i < (o p).numDomestic ∧ (o p).domesticToGlobal i = g
  listed : ∀ p, ∀ q ∈ (o p).peerSet, ((o p).foreignOverlap q).Nodup ∧
    ∀ i ∈ (o p).foreignOverlap q, i < (o p).numDomestic ∧ Holds (o q) ((o p).domesticToGlobal i)
  agree : ∀ p q, ∀ i < (o p).numDomestic, ∀ j < (o q).numDomestic, (o p).domesticToGlobal i = (o q).domesticToGlobal j →
    (o p).masterRank i = (o q).masterRank j
  master : ∀ p, ∀ i < (o p).numDomestic, (o p).masterRank i = p ∨
    ((o p).masterRank i ∈ (o p).peerSet ∧ ∃ j ∈ (o ((o p).masterRank i)).foreignOverlap p,
      (o ((o p).masterRank i)).domesticToGlobal j = (o p).domesticToGlobal i)

/-- The foreign overlaps are complete: a process has all processes with copies of an unknown which is local to it in its foreign
overlap for that unknown, and no others. -/
def Complete (o : Fin P → Overlap P) : Prop :=
  ∀ p q, p ≠ q → ∀ i < (o p).numDomestic,
    ((o p).domesticToNative i).isSome ∧ Holds (o q) ((o p).domesticToGlobal i) ↔
      q ∈ (o p).peerSet ∧ i ∈ (o p).foreignOverlap q

open Classical in
/-- What a process contributes to an unknown: the native value if the unknown is local to it. -/
noncomputable def contribution [Zero K] (o : Overlap P) (native : ℕ → K) (g : ℕ) : K :=
  if h : ∃ n, ∃ i < o.numDomestic, o.domesticToGlobal i = g ∧ o.domesticToNative i = some n then native h.choose else 0

end Verif.Sync
