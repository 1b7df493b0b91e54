import Mathlib.Algebra.Order.Field.Basic
import Mathlib.Data.List.Basic

/-
Weights of primary variables and of equations, which scale errors and the steps of finite differences: `primaryVarWeight`, `eqWeight`,
`updateBegin` and `updatePVWeights` of the models, and `numericEpsilon` of the finite difference linearizer.

Simplifications: numbers are exact; the offset `PVOffset` of all indices is zero, as it is in all models of the repository.
-/

set_option autoImplicit false

namespace Verif.Weights

variable {K : Type} [Field K] [LinearOrder K]

/-- A number which the code returns, or an assertion which fails -/
abbrev Weight (K : Type) := Option K

/-! ### The energy module -/

/-- The indices `temperatureIdx` and `energyEqIdx` if the energy is conserved
(opm/models/common/energymodule.hh lines 500-519); the numbers are the same for the variable and for the equation. -/
abbrev EnergyIdx := Option ℕ

/-- `EnergyModule::primaryVarWeight` (opm/models/common/energymodule.hh lines 98-101 without, 279-286 with energy); `temperature` is
that of the degree of freedom -/
def energyPvWeight (e : EnergyIdx) (temperature : K) (pvIdx : ℕ) : K :=
  if some pvIdx = e then max (1 / 1000) (1 / temperature) else -1

/-- `EnergyModule::eqWeight` (opm/models/common/energymodule.hh lines 106-109 without, 291-301 with energy) -/
def energyEqWeight (K : Type) [Field K] (e : EnergyIdx) (eqIdx : ℕ) : K :=
  if some eqIdx = e then 1 / (4184 * 30) else -1

/-! ### Reference pressures -/

/-- What `updateBegin` leaves in `referencePressure_`: the pressure of a degree of freedom, what was there before (nothing at the
beginning), or an access beyond the end of an array -/
inductive Reference (K : Type) where
  | pressure (p : K)
  | unchanged
  | beyond

/-- `ImmiscibleModel::updateBegin` (opm/models/immiscible/immisciblemodel.hh lines 301-317): the loop is over `numTotal` degrees of
freedom, `isLocal` has one entry for each of the grid -/
def immiscibleReference (numTotal : ℕ) (isLocal : List Bool) (pressure : ℕ → K) : Reference K :=
  match (List.range numTotal).find? fun i => (isLocal[i]?).getD true with
  | none => .unchanged
  | some i => if i < isLocal.length then .pressure (pressure i) else .beyond

/-- `NcpModel::updateBegin` (opm/models/ncp/ncpmodel.hh lines 346-360) and `RichardsModel::updateBegin`
(opm/models/richards/richardsmodel.hh lines 357-371) -/
def gridReference (isLocal : List Bool) (pressure : ℕ → K) : Reference K :=
  match (List.range isLocal.length).find? fun i => (isLocal[i]?).getD true with
  | none => .unchanged
  | some i => .pressure (pressure i)

/-- The loop of `PvsModel::updateBegin` (opm/models/pvs/pvsmodel.hh lines 388-395): `last` is what has been found so far. -/
def pvsLoop (volume : List K) (pressure : ℕ → K) : List ℕ → Reference K → Reference K
  | [], last => last
  | i :: rest, last =>
    match volume[i]? with
    | none => .beyond
    | some v => if 0 < v then if 0 < pressure i then .pressure (pressure i) else pvsLoop volume pressure rest (.pressure (pressure i))
      else pvsLoop volume pressure rest last

/-- `PvsModel::updateBegin` (opm/models/pvs/pvsmodel.hh lines 380-396) -/
def pvsReference (numTotal : ℕ) (volume : List K) (pressure : ℕ → K) : Reference K :=
  pvsLoop volume pressure (List.range numTotal) .unchanged

/-! ### The models -/

/-- `ImmiscibleModel::primaryVarWeight` (opm/models/immiscible/immisciblemodel.hh lines 321-333); `ref` is `referencePressure_` -/
def immisciblePvWeight (ref : K) (e : EnergyIdx) (temperature : K) (pvIdx : ℕ) : Weight K :=
  if ¬0 < ref then none
  else
    let tmp := energyPvWeight e temperature pvIdx
    if 0 < tmp then some tmp else if pvIdx = 0 then some (10 / ref) else some 1

/-- `ImmiscibleModel::eqWeight` (opm/models/immiscible/immisciblemodel.hh lines 338-352) -/
def immiscibleEqWeight (numPhases : ℕ) (e : EnergyIdx) (eqIdx : ℕ) : Weight K :=
  let tmp := energyEqWeight K e eqIdx
  if 0 < tmp then some tmp else if eqIdx ≤ numPhases then some 1 else none

/-- `RichardsModel::primaryVarWeight` (opm/models/richards/richardsmodel.hh lines 334-341) -/
def richardsPvWeight (ref : K) (pvIdx : ℕ) : Weight K := if pvIdx = 0 then some (10 / ref) else some 1

/-- `PvsModel::primaryVarWeight` (opm/models/pvs/pvsmodel.hh lines 401-428); `present` tells which phases are present, the weights
of saturations and mole fractions are properties -/
def pvsPvWeight (ref saturationWeight moleFractionWeight : K) (numPhases : ℕ) (present : ℕ → Bool) (e : EnergyIdx) (temperature : K)
    (pvIdx : ℕ) : Weight K :=
  let tmp := energyPvWeight e temperature pvIdx
  if 0 < tmp then some tmp
  else if pvIdx = 0 then some (10 / ref)
  else if 1 ≤ pvIdx ∧ pvIdx < 1 + numPhases - 1 then
    if ¬present (pvIdx - 1) then some 1 else some saturationWeight
  else some moleFractionWeight

/-- `PvsModel::eqWeight` (opm/models/pvs/pvsmodel.hh lines 433-445); `molarMass` throws or reads beyond the end for indices which are
not those of components (`none`) -/
def pvsEqWeight (numComponents : ℕ) (molarMass : ℕ → K) (e : EnergyIdx) (eqIdx : ℕ) : Weight K :=
  let tmp := energyEqWeight K e eqIdx
  if 0 < tmp then some tmp else if eqIdx < numComponents then some (molarMass eqIdx) else none

/-- `NcpModel::updatePVWeights` for one component and one degree of freedom (opm/models/ncp/ncpmodel.hh lines 370-384): `activity` are
the products of fugacity coefficients and pressures of all phases; `none` if the exception is thrown -/
def minActivity (activity : List K) : Option K :=
  let r := activity.foldl (fun m a => if a < m then a else m) (10 ^ 100)
  if r ≤ 0 then none else some r

/-- `NcpModel::primaryVarWeight` (opm/models/ncp/ncpmodel.hh lines 391-428): fugacities come first, then saturations, then the
pressure; `activity` are the smallest activity coefficients, the weights are properties -/
def ncpPvWeight (ref fugacityWeight pressureWeight saturationWeight : K) (numPhases numComponents : ℕ) (activity : ℕ → K) (e : EnergyIdx)
    (temperature : K) (pvIdx : ℕ) : Weight K :=
  let tmp := energyPvWeight e temperature pvIdx
  let result :=
    if 0 < tmp then some tmp
    else if pvIdx < numComponents then some (fugacityWeight / activity pvIdx)
    else if pvIdx = numComponents + numPhases - 1 then some (pressureWeight / ref)
    else if pvIdx - numComponents < numPhases - 1 then some saturationWeight else none
  match result with
  | none => none
  | some r => if 0 < r then some r else none

/-- `NcpModel::eqWeight` (opm/models/ncp/ncpmodel.hh lines 433-449) -/
def ncpEqWeight (numPhases numComponents : ℕ) (molarMass : ℕ → K) (e : EnergyIdx) (eqIdx : ℕ) : Weight K :=
  let tmp := energyEqWeight K e eqIdx
  if 0 < tmp then some tmp
  else if numComponents ≤ eqIdx ∧ eqIdx < numComponents + numPhases then some 1
  else if eqIdx < numComponents then some (molarMass eqIdx) else none

/-- `FlashModel::primaryVarWeight` (opm/models/flash/flashmodel.hh lines 283-297) -/
def flashPvWeight (numComponents : ℕ) (molarMass : ℕ → K) (e : EnergyIdx) (temperature : K) (pvIdx : ℕ) : Weight K :=
  let tmp := energyPvWeight e temperature pvIdx
  if 0 < tmp then some tmp else if pvIdx < numComponents then some (molarMass pvIdx / 100) else none

/-- `FlashModel::eqWeight` (opm/models/flash/flashmodel.hh lines 302-312) -/
def flashEqWeight (numComponents : ℕ) (molarMass : ℕ → K) (e : EnergyIdx) (eqIdx : ℕ) : Weight K :=
  pvsEqWeight numComponents molarMass e eqIdx

/-- `FvBaseDiscretization::primaryVarWeight` (opm/models/discretization/common/fvbasediscretization.hh lines 1202-1206), which is used
by the model of the directory `ptflash`; `old` is the value of the primary variable at the previous time level -/
def defaultPvWeight (old : K) : Weight K := some (1 / max |old| 1)

/-! ### The black-oil model -/

/-- The primary variables of the black-oil model and of its extensions (opm/models/blackoil/blackoilindices.hh lines 113-182) -/
inductive BlackOilVar
  | waterSwitch | pressureSwitch | compositionSwitch | solvent | zFraction | polymer | polymerMoleWeight | temperature
  | microbes | oxygen | urea | biofilm | calcite | foam | salt
  deriving DecidableEq

/-- `PrimaryVariables::GasMeaning` -/
inductive GasMeaning
  | sg | rs | rv | disabled
  deriving DecidableEq

/-- What the black-oil model does with a variable which nothing before applies to
(opm/models/blackoil/blackoilmodel.hh lines 427-438): the assertions are those of a build with assertions. -/
def compositionWeight (assertions : Bool) (v : BlackOilVar) (g : GasMeaning) : Weight K :=
  if assertions ∧ v ≠ .compositionSwitch then none
  else match g with
    | .sg => some 1
    | .rs => some (1 / 250)
    | .rv => some (1 / (25 / 1000))
    | .disabled => if assertions then none else some (1 / (25 / 1000))

/-- `BlackOilModel::primaryVarWeight` for a degree of freedom of the grid (opm/models/blackoil/blackoilmodel.hh lines 395-440;
`primaryVarApplies` and `primaryVarWeight` of the modules: opm/models/blackoil/blackoilsolventmodules.hh lines 384-405,
opm/models/blackoil/blackoilextbomodules.hh lines 273-294, opm/models/blackoil/blackoilpolymermodules.hh lines 409-439,
opm/models/blackoil/blackoilenergymodules.hh lines 93-115) -/
def blackOilPvWeight (assertions : Bool) (g : GasMeaning) (v : BlackOilVar) : Weight K :=
  match v with
  | .waterSwitch => some 1
  | .pressureSwitch => some (1 / 30000000)
  | .solvent => some 1
  | .zFraction => some 1
  | .polymer => some 1
  | .polymerMoleWeight => some 1
  | .temperature => some 1
  | v => compositionWeight assertions v g

/-! ### Finite differences -/

/-- `numericEpsilon` (opm/models/discretization/common/fvbasefdlocallinearizer.hh lines 279-290) -/
def numericEpsilon (assertions : Bool) (base : K) (weight : Weight K) : Option K :=
  match weight with
  | none => none
  | some w => if assertions ∧ ¬0 < w then none else some (base / w)

/-! ### Several threads -/

/-- What one thread does with `minActivityCoeff_[globalIdx][compIdx]` in `updatePVWeights`
(opm/models/ncp/ncpmodel.hh lines 371-384, the array is `mutable` and shared by all threads): set it, or lower it to a value -/
inductive Access (K : Type) where
  | set
  | lower (a : K)

/-- The accesses of `updatePVWeights` of one thread -/
def accesses (activity : List K) : List (Access K) := .set :: activity.map .lower

/-- The value after some accesses -/
def after (m : K) : List (Access K) → K
  | [] => m
  | .set :: l => after (10 ^ 100) l
  | .lower a :: l => after (if a < m then a else m) l

end Verif.Weights
