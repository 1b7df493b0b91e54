import Verif.OverlapMatrix.Model
import Verif.Sync.Spec
import Verif.Overlap.Spec

/-
What the matrices and products of all processes should be.
-/

set_option autoImplicit false

namespace Verif.OverlapMatrix

open Verif.Sync Verif.Overlap

variable {P : ℕ} {G K : Type}

/-- The native matrices have a row for each cell of the grid of the process, and no other columns than these cells, each at most once
in a row. -/
def Native (g : Grid P G) (a : Fin P → NativeMatrix K) : Prop :=
  ∀ p, (a p).numRows = (g.cells p).length ∧ ∀ n, ((a p).cols n).Nodup ∧ ∀ m ∈ (a p).cols n, m < (g.cells p).length

/-- The entry of the matrix of the whole grid: the owner of the row has the value `x` for the row of `c` and the column of `c'`. -/
def Entry (g : Grid P G) (a : Fin P → NativeMatrix K) (c c' : G) (x : K) : Prop :=
  ∃ n m, (g.cells (g.owner c))[n]? = some c ∧ (g.cells (g.owner c))[m]? = some c' ∧ m ∈ (a (g.owner c)).cols n ∧
    (a (g.owner c)).value n m = x

/-- The product of the matrix of the whole grid with a vector at `c`, as a sum over the columns which the owner of `c` has. -/
def IsProduct [Semiring K] (g : Grid P G) (a : Fin P → NativeMatrix K) (X : G → K) (c : G) (y : K) : Prop :=
  ∃ n, (g.cells (g.owner c))[n]? = some c ∧
    y = (((a (g.owner c)).cols n).map fun m => ((g.cells (g.owner c))[m]?).elim 0 fun c' => (a (g.owner c)).value n m * X c').sum

/-- The matrices of all processes are parts of the matrix of the whole grid: a process has an entry for two cells of its overlap
exactly if the matrix of the whole grid has one, with the same value. -/
def Distributed (g : Grid P G) (number : G → ℕ) (o : Fin P → Overlap P) (a : Fin P → NativeMatrix K) (s : Fin P → Matrix P K) : Prop :=
  ∀ p, ∀ i < (o p).numDomestic, ∀ j < (o p).numDomestic, ∀ c ∈ g.all, ∀ c' ∈ g.all,
    (o p).domesticToGlobal i = number c → (o p).domesticToGlobal j = number c' →
      ∀ x, ((s p).pattern i j ∧ (s p).value i j = x) ↔ Entry g a c c' x

/-- What the overlaps of all processes guarantee, as far as matrices need it: domestic indices stand for cells, own cells of the grid
of a process and copies of others have domestic indices, and only own cells are sent to peers. -/
structure Labelled (g : Grid P G) (number : G → ℕ) (o : Fin P → Overlap P) (black : Fin P → ℕ → Option ℕ) : Prop where
  coherent : Coherent o
  inj : Set.InjOn number g.all
  nodup : ∀ p, (g.cells p).Nodup
  owned : ∀ p, ∀ c ∈ g.cells p, c ∈ g.all
  cell : ∀ p, ∀ i < (o p).numDomestic, ∃ c ∈ g.all, (o p).domesticToGlobal i = number c ∧ (o p).masterRank i = g.owner c
  native : ∀ p i l, (o p).nativeToDomestic i = some l ↔ l < (o p).numDomestic ∧
    ∃ c, (g.cells p)[i]? = some c ∧ g.owner c = p ∧ (o p).domesticToGlobal l = number c
  back : ∀ p i l, (o p).domesticToNative l = some i ↔ (o p).nativeToDomestic i = some l
  own : ∀ p (i : ℕ) c, (g.cells p)[i]? = some c → g.owner c = p → ∃ l, (o p).nativeToDomestic i = some l
  copies : ∀ p i l, black p i = some l ↔ l < (o p).numDomestic ∧
    ∃ c, (g.cells p)[i]? = some c ∧ g.owner c ≠ p ∧ (o p).domesticToGlobal l = number c
  copied : ∀ p (i : ℕ) c, (g.cells p)[i]? = some c → g.owner c ≠ p → ∃ l, black p i = some l
  sent : ∀ p, ∀ q ∈ (o p).peerSet, ∀ l ∈ (o p).foreignOverlap q, ∃ n, (o p).domesticToNative l = some n

end Verif.OverlapMatrix
