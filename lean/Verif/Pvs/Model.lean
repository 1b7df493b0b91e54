import Mathlib.Algebra.Order.Field.Basic
import Mathlib.Logic.Function.Basic

/-
The primary variables of the compositional model with primary variable switching (PVS): how a fluid state is stored, how it is read back
and how the Newton method updates it.

`N` is the number of phases and `M` the number of components.  `PVOffset` is zero, as in the model: the pressure is variable 0
(`pressure0Idx`), and the switched variables start at 1 (`switch0Idx`, opm/models/pvs/pvsindices.hh:54-66).  Temperatures are not modelled.
-/

set_option autoImplicit false

namespace Verif.Pvs

variable {K : Type} [Field K] [LinearOrder K]

/-- `PvsPrimaryVariables`: the values and the present phases, as a bit mask.  The mask is a `short` in the code: the theorems are about at
most 15 phases. -/
structure PriVars (K : Type) where
  val : ℕ → K
  presence : ℕ

/-- `phaseIsPresent` (opm/models/pvs/pvsprimaryvariables.hh:207-219) -/
def PriVars.present (v : PriVars K) (i : ℕ) : Bool := v.presence.testBit i

/-- `ffs(mask) - 1` -/
def lowestBit (mask : ℕ) : ℕ := ((List.range 15).find? fun i => mask.testBit i).getD 0

/-- `lowestPresentPhaseIdx` (opm/models/pvs/pvsprimaryvariables.hh:224-225).  The code returns the largest `unsigned` if no phase is present; that
cannot happen below. -/
def PriVars.lowest (v : PriVars K) : ℕ := lowestBit v.presence

/-- `setPhasePresent` (opm/models/pvs/pvsprimaryvariables.hh:184-190) for `true` -/
def setBit (mask i : ℕ) : ℕ := mask ||| (1 <<< i)

/-- A fluid state, as far as it is used: saturations of phases, mole fractions of components in phases, pressures of phases -/
structure FluidState (K : Type) where
  saturation : ℕ → K
  moleFraction : ℕ → ℕ → K
  pressure : ℕ → K

/-- `a` in the loop of `assignNaive` (opm/models/pvs/pvsprimaryvariables.hh:297-300): one minus the sum of the mole fractions of a phase -/
def moleDefect (M : ℕ) (fs : FluidState K) (i : ℕ) : K := (List.range M).foldl (fun a c => a - fs.moleFraction i c) 1

/-- The phases which are present (opm/models/pvs/pvsprimaryvariables.hh:291-305) -/
def presenceOf (N M : ℕ) (fs : FluidState K) : ℕ :=
  (List.range N).foldl (fun mask i => if moleDefect M fs i < fs.saturation i then setBit mask i else mask) 0

/-- The phase which a switched variable belongs to (opm/models/pvs/pvsprimaryvariables.hh:315-318): all but the present one with the lowest index -/
def switchPhase (low j : ℕ) : ℕ := if low ≤ j then j + 1 else j

/-- `assignNaive` (opm/models/pvs/pvsprimaryvariables.hh:278-336); `none`: it throws because no phase is present. -/
def assignNaive (N M : ℕ) (fs : FluidState K) (v : PriVars K) : Option (PriVars K) :=
  let val := Function.update v.val 0 (fs.pressure 0)
  let presence := presenceOf N M fs
  if presence = 0 then none
  else
    let low := lowestBit presence
    let val := (List.range (N - 1)).foldl
      (fun val j => Function.update val (1 + j)
        (if presence.testBit (switchPhase low j) then fs.saturation (switchPhase low j) else fs.moleFraction low (j + 1))) val
    let val := (List.range' (N - 1) (M - 1 - (N - 1))).foldl
      (fun val c => Function.update val (1 + c) (fs.moleFraction low (c + 1))) val
    some ⟨val, presence⟩

/-- `explicitSaturationValue` (opm/models/pvs/pvsprimaryvariables.hh:250-267).  Derivatives are not modelled. -/
def explicitSaturation (v : PriVars K) (i : ℕ) : K :=
  if v.present i = false ∨ i = v.lowest then 0 else v.val (1 + i - 1)

/-- The saturations of the intensive quantities (opm/models/pvs/pvsintensivequantities.hh:117-127) -/
def readSaturation (N : ℕ) (v : PriVars K) : ℕ → K :=
  let sumSat := (List.range N).foldl (fun s i => s + explicitSaturation v i) 0
  Function.update (explicitSaturation v) v.lowest (1 - sumSat)

/-- The number of phases which are not present (opm/models/pvs/pvsintensivequantities.hh:150-154) -/
def numNonPresent (N : ℕ) (v : PriVars K) : ℕ := (List.range N).countP fun i => !v.present i

/-- The mole fractions of the only present phase (opm/models/pvs/pvsintensivequantities.hh:157-169) -/
def readComposition (M : ℕ) (v : PriVars K) : ℕ → K :=
  let sumx := (List.range' 1 (M - 1)).foldl (fun s c => s + v.val (1 + c - 1)) 0
  fun c => if c = 0 then 1 - sumx else v.val (1 + c - 1)

/-- The auxiliary constraints if several phases are present (opm/models/pvs/pvsintensivequantities.hh:180-205): components and their mole fractions in
the present phase with the lowest index -/
def auxConstraints (N M : ℕ) (v : PriVars K) : List (ℕ × K) :=
  let numAux := M + numNonPresent N v - N
  let first := (List.range (N - 1)).foldl
    (fun l j => if v.present (switchPhase v.lowest j) then l else l ++ [(j + 1, v.val (1 + j))]) []
  -- `auxIdx` is the number of constraints so far, and `switchIdx` is `N - 1`, plus the number of passes
  let second := (List.range (numAux - first.length)).map fun k =>
    (N - numNonPresent N v + (first.length + k), v.val (1 + (N - 1 + k)))
  first ++ second

/-- The loop over phases in the Newton method: those which it takes for those of saturations (opm/models/pvs/pvsnewtonmethod.hh:95-103,107-113) -/
def limitedPhases (N : ℕ) (cur : PriVars K) : List ℕ := (List.range (N - 1)).filter fun i => cur.present i

/-- `maxSatDelta` (opm/models/pvs/pvsnewtonmethod.hh:93-104) -/
def maxSatDelta (N : ℕ) (cur : PriVars K) (update : ℕ → K) : K :=
  let m := (limitedPhases N cur).foldl (fun m i => max |update (1 + i)| m) 0
  let s := (limitedPhases N cur).foldl (fun s i => s + update (1 + i)) 0
  max |-s| m

/-- `PvsNewtonMethod::updatePrimaryVariables_` (opm/models/pvs/pvsnewtonmethod.hh:79-121) -/
def updatePrimaryVariables (N : ℕ) (cur : PriVars K) (update : ℕ → K) : PriVars K :=
  let val := fun i => cur.val i - update i
  let m := maxSatDelta N cur update
  let val := if 1 / 5 < m then
      (limitedPhases N cur).foldl
        (fun val i => Function.update val (1 + i) (cur.val (1 + i) - (1 / 5) / m * update (1 + i))) val
    else val
  let val := Function.update val 0 (max (cur.val 0 * (4 / 5)) (min (val 0) (cur.val 0 * (6 / 5))))
  ⟨val, cur.presence⟩

end Verif.Pvs
