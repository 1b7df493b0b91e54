import Verif.GlobalIdx.Model
import Mathlib.Data.Set.Function

/-
What the numbering of the degrees of freedom should be, without reference to how it is computed.
-/

set_option autoImplicit false

namespace Verif.GlobalIdx

variable {P : ℕ} {G : Type}

/-- The native indices of a process which are not black-listed, in increasing order: the local index `k` is the `k`-th. -/
def locals (d : Part P) : List ℕ := (List.range d.blackList.length).filter fun i => d.blackList[i]? = some false

/-- What the grid guarantees.  `dof p i` is the degree of freedom of the native index `i` of the process `p`.
* A process has each degree of freedom once among those which are not black-listed.
* Border lists have entries for the degrees of freedom which are shared with other processes, at distance zero (as
  opm/simulators/linalg/vertexborderlistfromgrid.hh makes them), or entries with another distance and no shared degrees of
  freedom (as opm/simulators/linalg/elementborderlistfromgrid.hh does), for which the overlap must not be empty. -/
structure Valid (overlapSize : ℕ) (d : Fin P → Part P) (dof : Fin P → ℕ → G) : Prop where
  distinct : ∀ p, ∀ i ∈ locals (d p), ∀ j ∈ locals (d p), dof p i = dof p j → i = j
  uniform : ∃ δ, (∀ p, ∀ e ∈ (d p).borderList, e.borderDistance = δ) ∧ (δ = 0 ∨ 0 < overlapSize)
  entries : ∀ p, ∀ e ∈ (d p).borderList, e.borderDistance = 0 →
    e.peerRank ≠ p ∧ e.localIdx ∈ locals (d p) ∧ e.peerIdx ∈ locals (d e.peerRank) ∧
      dof p e.localIdx = dof e.peerRank e.peerIdx
  complete : ∀ p q, p ≠ q → ∀ i ∈ locals (d p), ∀ j ∈ locals (d q), dof p i = dof q j →
    (⟨i, j, q, 0⟩ : BorderIndex P) ∈ (d p).borderList
  nodup : ∀ p, (d p).borderList.Nodup
  peers : ∀ p, (d p).peerSet.Pairwise (· < ·) ∧ ∀ e ∈ (d p).borderList, e.peerRank ∈ (d p).peerSet

/-- The degrees of freedom which some process has. -/
def present (d : Fin P → Part P) (dof : Fin P → ℕ → G) : Set G := {g | ∃ p, ∃ i ∈ locals (d p), dof p i = g}

/-- All processes have one numbering `number` of all degrees of freedom by 0, 1, …: different ones get different numbers, all
numbers below their count are used, every process knows the number of each of its local indices and the local index of each
such number, and nothing else. -/
def Numbered (d : Fin P → Part P) (dof : Fin P → ℕ → G) (state : Fin P → State) : Prop :=
  ∃ (count : ℕ) (number : G → ℕ), Set.BijOn number (present d dof) {n | n < count} ∧
    ∀ p, (∀ k, (state p).toGlobal k = ((locals (d p))[k]?).map fun i => number (dof p i)) ∧
      ∀ n k, (state p).toDomestic n = some k ↔ (state p).toGlobal k = some n

end Verif.GlobalIdx
