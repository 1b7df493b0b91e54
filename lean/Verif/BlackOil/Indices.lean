import Mathlib.Data.Int.Notation
import Mathlib.Data.Int.Order.Basic

/-
The indices of primary variables and equations of the black-oil model: opm/models/blackoil/blackoilindices.hh,
opm/models/blackoil/blackoiltwophaseindices.hh and opm/models/blackoil/blackoilonephaseindices.hh.
-/

set_option autoImplicit false

namespace Verif.BlackOil

/-- The template arguments of all classes of indices (opm/models/blackoil/blackoilindices.hh:38-46, opm/models/blackoil/blackoiltwophaseindices.hh:39-48,
opm/models/blackoil/blackoilonephaseindices.hh:40-49), except for the disabled (or only) component. -/
structure Config where
  solvents : ℕ
  extbos : ℕ
  polymers : ℕ
  energy : ℕ
  foam : Bool
  brine : Bool
  offset : ℕ
  micps : ℕ

/-- The static members of the classes of indices.  An index which is not used is negative. -/
structure Layout where
  numEq : ℕ
  waterSwitchIdx : ℤ
  pressureSwitchIdx : ℤ
  compositionSwitchIdx : ℤ
  solventSaturationIdx : ℤ
  zFractionIdx : ℤ
  polymerConcentrationIdx : ℤ
  polymerMoleWeightIdx : ℤ
  microbialConcentrationIdx : ℤ
  oxygenConcentrationIdx : ℤ
  ureaConcentrationIdx : ℤ
  biofilmConcentrationIdx : ℤ
  calciteConcentrationIdx : ℤ
  foamConcentrationIdx : ℤ
  saltConcentrationIdx : ℤ
  temperatureIdx : ℤ
  numPhases : ℕ
  conti0EqIdx : ℤ
  contiSolventEqIdx : ℤ
  contiZfracEqIdx : ℤ
  contiPolymerEqIdx : ℤ
  contiPolymerMWEqIdx : ℤ
  contiMicrobialEqIdx : ℤ
  contiOxygenEqIdx : ℤ
  contiUreaEqIdx : ℤ
  contiBiofilmEqIdx : ℤ
  contiCalciteEqIdx : ℤ
  contiFoamEqIdx : ℤ
  contiBrineEqIdx : ℤ
  contiEnergyEqIdx : ℤ

namespace Config

/-- `numFoam` (opm/models/blackoil/blackoilindices.hh:84) -/
def numFoam (c : Config) : ℕ := if c.foam then 1 else 0

/-- `numBrine` (opm/models/blackoil/blackoilindices.hh:87) -/
def numBrine (c : Config) : ℕ := if c.brine then 1 else 0

/-- `numEq` (opm/models/blackoil/blackoilindices.hh:93-94, opm/models/blackoil/blackoiltwophaseindices.hh:92-93, opm/models/blackoil/blackoilonephaseindices.hh:94-95) -/
def numEq (c : Config) (phases : ℕ) : ℕ :=
  phases + c.solvents + c.extbos + c.polymers + c.energy + c.numFoam + c.numBrine + c.micps

end Config

/-- `BlackOilIndices` (opm/models/blackoil/blackoilindices.hh:47-239) -/
def threePhase (c : Config) : Layout where
  numEq := c.numEq 3
  waterSwitchIdx := c.offset + 0
  pressureSwitchIdx := c.offset + 1
  compositionSwitchIdx := c.offset + 2
  solventSaturationIdx := if 0 < c.solvents then c.offset + 3 else -1000
  zFractionIdx := if 0 < c.extbos then c.offset + 3 + c.solvents else -1000
  polymerConcentrationIdx := if 0 < c.polymers then c.offset + 3 + c.solvents else -1000
  polymerMoleWeightIdx := if 1 < c.polymers then c.offset + 3 + c.solvents + 1 else -1000
  microbialConcentrationIdx := if 0 < c.micps then c.offset + 3 + c.solvents else -1000
  oxygenConcentrationIdx := if 1 < c.micps then c.offset + 3 + c.solvents + 1 else -1000
  ureaConcentrationIdx := if 2 < c.micps then c.offset + 3 + c.solvents + 2 else -1000
  biofilmConcentrationIdx := if 3 < c.micps then c.offset + 3 + c.solvents + 3 else -1000
  calciteConcentrationIdx := if 4 < c.micps then c.offset + 3 + c.solvents + 4 else -1000
  foamConcentrationIdx := if c.foam then c.offset + 3 + c.solvents + c.extbos + c.polymers + c.micps else -1000
  saltConcentrationIdx :=
    if c.brine then c.offset + 3 + c.solvents + c.extbos + c.extbos + c.polymers + c.micps + c.numFoam else -1000
  temperatureIdx :=
    if 0 < c.energy then c.offset + 3 + c.solvents + c.extbos + c.polymers + c.micps + c.numFoam + c.numBrine else -1000
  numPhases := 3
  conti0EqIdx := c.offset + 0
  contiSolventEqIdx := if 0 < c.solvents then c.offset + 3 else -1000
  contiZfracEqIdx := if 0 < c.extbos then c.offset + 3 + c.solvents else -1000
  contiPolymerEqIdx := if 0 < c.polymers then c.offset + 3 + c.solvents + c.extbos else -1000
  contiPolymerMWEqIdx := if 1 < c.polymers then c.offset + 3 + c.solvents + c.extbos + 1 else -1000
  contiMicrobialEqIdx := if 0 < c.micps then c.offset + 3 + c.solvents + c.extbos else -1000
  contiOxygenEqIdx := if 1 < c.micps then c.offset + 3 + c.solvents + c.extbos + 1 else -1000
  contiUreaEqIdx := if 2 < c.micps then c.offset + 3 + c.solvents + c.extbos + 2 else -1000
  contiBiofilmEqIdx := if 3 < c.micps then c.offset + 3 + c.solvents + c.extbos + 3 else -1000
  contiCalciteEqIdx := if 4 < c.micps then c.offset + 3 + c.solvents + c.extbos + 4 else -1000
  contiFoamEqIdx := if c.foam then c.offset + 3 + c.solvents + c.extbos + c.polymers + c.micps else -1000
  contiBrineEqIdx := if c.brine then c.offset + 3 + c.solvents + c.extbos + c.polymers + c.micps + c.numFoam else -1000
  contiEnergyEqIdx :=
    if 0 < c.energy then c.offset + 3 + c.solvents + c.extbos + c.polymers + c.micps + c.numFoam + c.numBrine else -1000

/-- `BlackOilTwoPhaseIndices` (opm/models/blackoil/blackoiltwophaseindices.hh:49-269); components: 0 oil, 1 water, 2 gas -/
def twoPhase (c : Config) (disabled : ℕ) : Layout where
  numEq := c.numEq 2
  waterSwitchIdx := if disabled ≠ 1 then c.offset + 0 else -10000
  pressureSwitchIdx := if disabled ≠ 1 then c.offset + 1 else c.offset + 0
  compositionSwitchIdx := if disabled ≠ 2 ∧ disabled ≠ 0 then c.offset + 1 else -10000
  solventSaturationIdx := if 0 < c.solvents then c.offset + 2 else -1000
  zFractionIdx := if 0 < c.extbos then c.offset + 2 + c.solvents else -1000
  polymerConcentrationIdx := if 0 < c.polymers then c.offset + 2 + c.solvents else -1000
  polymerMoleWeightIdx := if 1 < c.polymers then c.offset + 2 + c.solvents + 1 else -1000
  microbialConcentrationIdx := if 0 < c.micps then c.offset + 2 + c.solvents else -1000
  oxygenConcentrationIdx := if 1 < c.micps then c.offset + 2 + c.solvents + 1 else -1000
  ureaConcentrationIdx := if 2 < c.micps then c.offset + 2 + c.solvents + 2 else -1000
  biofilmConcentrationIdx := if 3 < c.micps then c.offset + 2 + c.solvents + 3 else -1000
  calciteConcentrationIdx := if 4 < c.micps then c.offset + 2 + c.solvents + 4 else -1000
  foamConcentrationIdx := if c.foam then c.offset + 2 + c.solvents + c.polymers + c.micps else -1000
  saltConcentrationIdx := if c.brine then c.offset + 2 + c.solvents + c.polymers + c.micps + c.numFoam else -1000
  temperatureIdx :=
    if 0 < c.energy then c.offset + 2 + c.solvents + c.extbos + c.polymers + c.micps + c.numFoam + c.numBrine else -1000
  numPhases := 2
  conti0EqIdx := c.offset + 0
  contiSolventEqIdx := if 0 < c.solvents then c.offset + 2 else -1000
  contiZfracEqIdx := if 0 < c.extbos then c.offset + 2 + c.solvents else -1000
  contiPolymerEqIdx := if 0 < c.polymers then c.offset + 2 + c.solvents else -1000
  contiPolymerMWEqIdx := if 1 < c.polymers then c.offset + 2 + c.solvents + 1 else -1000
  contiMicrobialEqIdx := if 0 < c.micps then c.offset + 2 + c.solvents else -1000
  contiOxygenEqIdx := if 1 < c.micps then c.offset + 2 + c.solvents + 1 else -1000
  contiUreaEqIdx := if 2 < c.micps then c.offset + 2 + c.solvents + 2 else -1000
  contiBiofilmEqIdx := if 3 < c.micps then c.offset + 2 + c.solvents + 3 else -1000
  contiCalciteEqIdx := if 4 < c.micps then c.offset + 2 + c.solvents + 4 else -1000
  contiFoamEqIdx := if c.foam then c.offset + 2 + c.solvents + c.polymers + c.micps else -1000
  contiBrineEqIdx := if c.brine then c.offset + 2 + c.solvents + c.polymers + c.micps + c.numFoam else -1000
  contiEnergyEqIdx :=
    if 0 < c.energy then c.offset + 2 + c.solvents + c.extbos + c.polymers + c.micps + c.numFoam + c.numBrine else -1000

/-- `BlackOilOnePhaseIndices` (opm/models/blackoil/blackoilonephaseindices.hh:50-245) -/
def onePhase (c : Config) : Layout where
  numEq := c.numEq 1
  waterSwitchIdx := -10000
  pressureSwitchIdx := c.offset + 0
  compositionSwitchIdx := -10000
  solventSaturationIdx := if 0 < c.solvents then c.offset + 1 else -1000
  zFractionIdx := if 0 < c.extbos then c.offset + 1 + c.solvents else -1000
  polymerConcentrationIdx := if 0 < c.polymers then c.offset + 1 + c.solvents else -1000
  polymerMoleWeightIdx := if 1 < c.polymers then c.offset + 1 + c.solvents + 1 else -1000
  microbialConcentrationIdx := if 0 < c.micps then c.offset + 1 + c.solvents else -1000
  oxygenConcentrationIdx := if 1 < c.micps then c.offset + 1 + c.solvents + 1 else -1000
  ureaConcentrationIdx := if 2 < c.micps then c.offset + 1 + c.solvents + 2 else -1000
  biofilmConcentrationIdx := if 3 < c.micps then c.offset + 1 + c.solvents + 3 else -1000
  calciteConcentrationIdx := if 4 < c.micps then c.offset + 1 + c.solvents + 4 else -1000
  foamConcentrationIdx := if c.foam then c.offset + 1 + c.solvents + c.polymers + c.micps else -1000
  saltConcentrationIdx := if c.brine then c.offset + 1 + c.solvents + c.extbos + c.polymers + c.micps + c.numFoam else -1000
  temperatureIdx :=
    if 0 < c.energy then c.offset + 1 + c.solvents + c.extbos + c.polymers + c.micps + c.numFoam + c.numBrine else -1000
  numPhases := 1
  conti0EqIdx := c.offset + 0
  contiSolventEqIdx := if 0 < c.solvents then c.offset + 1 else -1000
  contiZfracEqIdx := if 0 < c.extbos then c.offset + 1 + c.solvents else -1000
  contiPolymerEqIdx := if 0 < c.polymers then c.offset + 1 + c.solvents else -1000
  contiPolymerMWEqIdx := if 1 < c.polymers then c.offset + 1 + c.solvents + 1 else -1000
  contiMicrobialEqIdx := if 0 < c.micps then c.offset + 1 + c.solvents else -1000
  contiOxygenEqIdx := if 1 < c.micps then c.offset + 1 + c.solvents + 1 else -1000
  contiUreaEqIdx := if 2 < c.micps then c.offset + 1 + c.solvents + 2 else -1000
  contiBiofilmEqIdx := if 3 < c.micps then c.offset + 1 + c.solvents + 3 else -1000
  contiCalciteEqIdx := if 4 < c.micps then c.offset + 1 + c.solvents + 4 else -1000
  contiFoamEqIdx := if c.foam then c.offset + 1 + c.solvents + c.polymers + c.micps else -1000
  contiBrineEqIdx := if c.brine then c.offset + 1 + c.solvents + c.extbos + c.polymers + c.micps + c.numFoam else -1000
  contiEnergyEqIdx :=
    if 0 < c.energy then c.offset + 1 + c.solvents + c.extbos + c.polymers + c.micps + c.numFoam + c.numBrine else -1000

/-- `BlackOilTwoPhaseIndices::canonicalToActiveComponentIndex` (opm/models/blackoil/blackoiltwophaseindices.hh:177-194).  A violated assertion is
`none`. -/
def canonicalToActive (disabled compIdx : ℕ) : Option ℕ :=
  if disabled = 2 then if compIdx ≠ 2 then some compIdx else none
  else if disabled = 1 then if compIdx ≠ 1 then some (compIdx / 2) else none
  else if disabled = 0 ∧ compIdx ≠ 0 then some (compIdx - 1) else none

/-- `BlackOilTwoPhaseIndices::activeToCanonicalComponentIndex` (opm/models/blackoil/blackoiltwophaseindices.hh:196-212) -/
def activeToCanonical (disabled compIdx : ℕ) : Option ℕ :=
  if compIdx < 2 then
    if disabled = 2 then some compIdx
    else if disabled = 1 then some (compIdx * 2)
    else if disabled = 0 then some (compIdx + 1) else none
  else none

end Verif.BlackOil
