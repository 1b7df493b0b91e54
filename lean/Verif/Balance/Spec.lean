import Verif.Balance.Model
import Verif.Tpfa.Props
import Mathlib.Algebra.BigOperators.Group.Finset.Basic
import Mathlib.Algebra.Order.Field.Basic

set_option autoImplicit false
/-
Vocabulary for the balance of mass of a whole simulation.
-/
namespace Verif.Balance

open TimeLoop

variable {K PV W M C X : Type} {m : ℕ}
variable [Field K] [LinearOrder K] [AddCommGroup M] [Module K M]

/-- How much of the conserved quantity `k` is in the domain. -/
def amount (f : Physics K PV M C X m) (s : ℕ → PV) (k : Fin m) : K :=
  ∑ i ∈ Finset.range f.numCells, f.volume i * (f.storage i (s i)).1 k

/-- How much of it sources and the boundary supply per unit of time. -/
def supply (f : Physics K PV M C X m) (own : X) (dt : K) (s : ℕ → PV) (k : Fin m) : K :=
  (∑ i ∈ Finset.range f.numCells, f.volume i * (f.source own dt s i).1 k)
    - (((f.boundary own dt s).filter fun b => !b.none).map fun b => b.area * b.flux.1 k).sum

/-- By how much cell `i` violates the balance of `k` if the solution changes from `old` to `cur` within `dt`: outflow to the
neighbours, change of the storage, sources and outflow over the boundary. -/
def imbalance (f : Physics K PV M C X m) (own : X) (dt : K) (cur old : ℕ → PV) (i : ℕ) (k : Fin m) : K :=
  ((f.nb i).map fun e => f.area e.2 * (f.flux own dt cur i e.1 e.2).1 k).sum
    + f.volume i / dt * ((f.storage i (cur i)).1 k - (f.storage i (old i)).1 k)
    - f.volume i * (f.source own dt cur i).1 k
    + (((f.boundary own dt cur).filter fun b => b.cell = i ∧ b.none = false).map fun b => b.area * b.flux.1 k).sum

/-- In the configuration `c` of a run the next thing that happens is a time integration which succeeds. -/
def Integrates (P : Problem K (St PV X)) (c : Conf K (St PV X)) : Prop := c.pc = .integrate ∧ (step P c).pc = .endStep

instance (P : Problem K (St PV X)) (c : Conf K (St PV X)) : Decidable (Integrates P c) := by
  unfold Integrates; infer_instance

/-- The solution `s` does not yet meet the tolerance as the solution of a step of size `dt` which begins at `s`. -/
def Unsettled (f : Physics K PV M C X m) (q : Numerics K PV W M X m) (own : X) (dt : K) (s : ℕ → PV) : Prop :=
  ∃ i < f.numCells, ∃ k : Fin m, q.tolerance < |imbalance f own dt s s i k * q.weight i k|

/-- What flows out of one cell flows into another, whatever the solution is (see `Verif.Tpfa.Network`). -/
def Conservative (f : Physics K PV M C X m) (rev : C → C) : Prop :=
  ∀ own dt s, Tpfa.Network (net f own dt s s) rev

end Verif.Balance
