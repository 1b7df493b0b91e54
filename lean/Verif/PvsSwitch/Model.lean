import Mathlib.Algebra.BigOperators.Fin
import Mathlib.Data.Fintype.Basic
import Verif.Agree.Model
import Verif.Pvs.Model
import Verif.Restart.Model

/-
The compositional model with primary variable switching (PVS): switching the primary variables of all degrees of freedom after a
Newton iteration, and what is written to and read from restart files.
-/

set_option autoImplicit false

namespace Verif.PvsSwitch

open Verif.Pvs

variable {K : Type} [Field K] [LinearOrder K]

/-- What the loop of `switchPrimaryVars_` works on (opm/models/pvs/pvsmodel.hh:505-509): the solution, `visited`, `numSwitched_`, and
whether no exception was thrown so far.  The counter is an `unsigned`; that it can overflow is not modelled. -/
structure Work (K : Type) where
  sol : ℕ → PriVars K
  visited : ℕ → Bool
  numSwitched : ℕ
  ok : Bool

/-- The degree of freedom with the index `i` (opm/models/pvs/pvsmodel.hh:515-540).  `fluid i v` is the fluid state which is computed
for the primary variables `v` of the degree of freedom `i`, or `none` if that throws.  After an exception nothing more is done. -/
def visit (fluid : ℕ → PriVars K → Option (FluidState K)) (N M : ℕ) (w : Work K) (i : ℕ) : Work K :=
  if w.ok = false then w
  else if w.visited i then w
  else
    let w := { w with visited := Function.update w.visited i true }
    match fluid i (w.sol i) with
    | none => { w with ok := false }
    | some fs =>
      let oldPhasePresence := (w.sol i).presence
      match assignNaive N M fs (w.sol i) with
      | none => { w with ok := false }
      | some v =>
        { w with
          sol := Function.update w.sol i v
          numSwitched := if oldPhasePresence ≠ v.presence then w.numSwitched + 1 else w.numSwitched }

/-- The loops of `switchPrimaryVars_` on one process (opm/models/pvs/pvsmodel.hh:505-543) over the elements of its interior, which are
given by the indices of their degrees of freedom. -/
def switchLocal (fluid : ℕ → PriVars K → Option (FluidState K)) (N M : ℕ) (elements : List (List ℕ)) (sol : ℕ → PriVars K) : Work K :=
  elements.foldl (fun w dofs => dofs.foldl (visit fluid N M) w) ⟨sol, fun _ => false, 0, true⟩

/-- The end of `switchPrimaryVars_` (opm/models/pvs/pvsmodel.hh:551-559) for what the processes have got: all compute the minimum of the
flags, and throw (`none`), or compute the sum of the numbers. -/
def switchGlobal {P : ℕ} (w : Fin P → Work K) (_ : Fin P) : Option ℕ :=
  if ∀ q, (w q).ok = true then some (∑ q, (w q).numSwitched) else none

/-- `switched` (opm/models/pvs/pvsmodel.hh:461-462) after `switchPrimaryVars_` -/
def switched (numSwitched : ℕ) : Bool := numSwitched > 0

/-- `switchPrimaryVars_` as a place where failures are agreed on (opm/models/pvs/pvsmodel.hh:505-554) -/
def switchSite {P : ℕ} : Verif.Agree.Site P := Verif.Agree.guarded Verif.Agree.catchAll

/-- The end of a Newton iteration with this model (opm/models/pvs/pvsnewtonmethod.hh:126-131) -/
def endOfIteration {P : ℕ} : List (Verif.Agree.Site P) := [Verif.Agree.endIteration, switchSite]

end Verif.PvsSwitch

namespace Verif.PvsSwitch

open Verif.Restart Verif.ForcedSteps

variable {K : Type}

/-- A degree of freedom as it is stored in the two solution vectors: the values and the phase presence of both time levels. -/
structure Dof (K : Type) where
  vals : List K
  presence : ℤ
  oldPresence : ℤ
deriving DecidableEq

/-- `PvsModel::serializeEntity` (opm/models/pvs/pvsmodel.hh:468-478): the values, then the phase presence -/
def writePvs (FI : Format ℤ) (FK : Format K) (d : Dof K) : List Char :=
  writeValues FK d.vals ++ (FI.fmt d.presence ++ c!" ")

/-- `PvsModel::deserializeEntity` (opm/models/pvs/pvsmodel.hh:484-498).  The phase presence is read to a `short`, which is not
initialised: `junk` is what it contains if reading fails. -/
def readPvs (FI : Format ℤ) (FK : Format K) (junk : ℤ) (old : Dof K) (s : Stream) : Except Err (Dof K) :=
  match readValues FK old.vals s with
  | .error e => .error e
  | .ok (vals, s) =>
    if !Verif.Restart.Stream.good s then .error .entity
    else
      let (tmp, _) := readInto FI junk s
      .ok { old with vals := vals, presence := tmp, oldPresence := tmp }

end Verif.PvsSwitch
