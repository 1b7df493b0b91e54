import Verif.BlackOil.Indices
import Mathlib.Algebra.Order.Field.Basic
import Mathlib.Algebra.Order.Group.Abs
import Mathlib.Logic.Function.Basic
import Mathlib.Order.Lattice

/-
The primary variables of the black-oil model and what is done with them: opm/models/blackoil/blackoilprimaryvariables.hh,
opm/models/blackoil/blackoilnewtonmethod.hh and the first part of `update` of opm/models/blackoil/blackoilintensivequantities.hh.
-/

set_option autoImplicit false

namespace Verif.BlackOil

/-- opm/models/blackoil/blackoilprimaryvariables.hh:125-130 -/
inductive WaterMeaning
  | Sw | Rvw | Rsw | Disabled
  deriving DecidableEq

/-- opm/models/blackoil/blackoilprimaryvariables.hh:132-136 -/
inductive PressureMeaning
  | Po | Pg | Pw
  deriving DecidableEq

/-- opm/models/blackoil/blackoilprimaryvariables.hh:138-143 -/
inductive GasMeaning
  | Sg | Rs | Rv | Disabled
  deriving DecidableEq

/-- opm/models/blackoil/blackoilprimaryvariables.hh:145-149 -/
inductive BrineMeaning
  | Cs | Sp | Disabled
  deriving DecidableEq

/-- opm/models/blackoil/blackoilprimaryvariables.hh:151-155 -/
inductive SolventMeaning
  | Ss | Rsolw | Disabled
  deriving DecidableEq

variable {K : Type}

/-- `BlackOilPrimaryVariables`: the values, as a vector, and their meanings (opm/models/blackoil/blackoilprimaryvariables.hh:1141-1148).  The region is
part of `Fluid` below, and `pcFactor_`, which is only used while adapting, is a local variable of it. -/
@[ext] structure PriVars (K : Type) where
  val : ℤ → K
  water : WaterMeaning
  pressure : PressureMeaning
  gas : GasMeaning
  brine : BrineMeaning
  solvent : SolventMeaning

/-- `(*this)[i] = x` -/
def PriVars.set (v : PriVars K) (i : ℤ) (x : K) : PriVars K := { v with val := Function.update v.val i x }

/-- What the primary variables ask the fluid system, the problem and the modules for, at one degree of freedom -/
structure Fluid (K : Type) where
  /-- which phases are active (`FluidSystem::phaseIsActive`, `Indices::oilEnabled`, …) -/
  oilActive : Bool
  gasActive : Bool
  waterActive : Bool
  /-- `FluidSystem::enable…` -/
  vaporizedWater : Bool
  dissolvedGasInWater : Bool
  dissolvedGas : Bool
  vaporizedOil : Bool
  saltPrecipitation : Bool
  /-- `SolventModule::isSolubleInWater` -/
  solventInWater : Bool
  /-- `pressureScale_` -/
  scale : K
  /-- the temperature, if it is not a primary variable -/
  temperature : K
  /-- `BrineModule::saltSol` -/
  saltSol : K
  /-- `BrineModule::pcfactTable`, if there are such tables -/
  pcfact : Option (K → K)
  /-- `SolventModule::solubilityLimit` of temperature, pressure and salt concentration -/
  solubilityLimit : K → K → K → K
  /-- `saturatedWaterVaporizationFactor` of temperature, pressure and salt concentration -/
  rvwSat : K → K → K → K
  /-- `WaterPvt::saturatedGasDissolutionFactor` of temperature, pressure and salt concentration -/
  rswSat : K → K → K → K
  /-- `OilPvt::saturatedGasDissolutionFactor` of temperature, pressure, oil saturation and its maximum -/
  rsSat : K → K → K → K → K
  /-- `saturatedOilVaporizationFactor` of temperature, pressure, oil saturation and its maximum -/
  rvSat : K → K → K → K → K
  /-- `ExtboModule::rs`, `rv` of pressure and z fraction -/
  extboRs : K → K → K
  extboRv : K → K → K
  /-- `MaterialLaw::capillaryPressures` of the saturations of oil, gas and water -/
  pcOil : K → K → K → K
  pcGas : K → K → K → K
  pcWater : K → K → K → K
  /-- of the problem -/
  maxOilSaturation : K
  maxGasDissolutionFactor : K
  maxOilVaporizationFactor : K

section
variable [Field K] [LinearOrder K]

/-- `solventSaturation_` (opm/models/blackoil/blackoilprimaryvariables.hh:1012-1019) -/
def solventSaturation (L : Layout) (v : PriVars K) : K :=
  if 0 ≤ L.solventSaturationIdx ∧ v.solvent = .Ss then v.val L.solventSaturationIdx else 0

/-- `zFraction_` (opm/models/blackoil/blackoilprimaryvariables.hh:1021-1027) -/
def zFraction (L : Layout) (v : PriVars K) : K := if 0 ≤ L.zFractionIdx then v.val L.zFractionIdx else 0

/-- `temperature_` (opm/models/blackoil/blackoilprimaryvariables.hh:1053-1062) -/
def temperature (L : Layout) (f : Fluid K) (v : PriVars K) : K :=
  if 0 ≤ L.temperatureIdx then v.val L.temperatureIdx else f.temperature

/-- `pressure_` (opm/models/blackoil/blackoilprimaryvariables.hh:1131-1134) -/
def pressure (L : Layout) (f : Fluid K) (v : PriVars K) : K := v.val L.pressureSwitchIdx * f.scale

/-- `setScaledPressure_` (opm/models/blackoil/blackoilprimaryvariables.hh:1136-1139) -/
def setScaledPressure (L : Layout) (f : Fluid K) (v : PriVars K) (p : K) : PriVars K := v.set L.pressureSwitchIdx (p / f.scale)

/-! ### Switching: `adaptPrimaryVariables` (opm/models/blackoil/blackoilprimaryvariables.hh:549-909) -/

/-- The water saturation, as far as it can be read from the variables (opm/models/blackoil/blackoilprimaryvariables.hh:569-575) -/
def readSw (L : Layout) (v : PriVars K) : K :=
  match v.water with
  | .Sw => v.val L.waterSwitchIdx
  | .Rsw => 1
  | _ => 0

/-- The gas saturation, as far as it can be read from the variables (opm/models/blackoil/blackoilprimaryvariables.hh:571-579) -/
def readSg (L : Layout) (f : Fluid K) (v : PriVars K) : K :=
  match v.gas with
  | .Sg => v.val L.compositionSwitchIdx
  | .Disabled => if f.gasActive then 1 - readSw L v else 0
  | _ => 0

/-- The part of the solid salt (opm/models/blackoil/blackoilprimaryvariables.hh:581-600).  The second component is the salt concentration. -/
def adaptBrine (L : Layout) (f : Fluid K) (eps : K) (v : PriVars K) : PriVars K × K :=
  if f.saltPrecipitation then
    match v.brine with
    | .Sp =>
      (if v.val L.saltConcentrationIdx < -eps then { v.set L.saltConcentrationIdx f.saltSol with brine := .Cs } else v, f.saltSol)
    | .Cs =>
      (if f.saltSol + eps < v.val L.saltConcentrationIdx then { v.set L.saltConcentrationIdx 0 with brine := .Sp } else v,
        v.val L.saltConcentrationIdx)
    | .Disabled => (v, 0)
  else (v, 0)

/-- The part of the solvent (opm/models/blackoil/blackoilprimaryvariables.hh:602-625); the pressure is not scaled (607). -/
def adaptSolvent (L : Layout) (f : Fluid K) (eps T salt : K) (v : PriVars K) : PriVars K :=
  if 0 ≤ L.solventSaturationIdx ∧ f.solventInWater then
    let solLimit := f.solubilityLimit T (v.val L.pressureSwitchIdx) salt
    match v.solvent with
    | .Ss =>
      if v.val L.solventSaturationIdx < -eps then { v.set L.solventSaturationIdx solLimit with solvent := .Rsolw } else v
    | .Rsolw =>
      if solLimit + eps < v.val L.solventSaturationIdx then { v.set L.solventSaturationIdx 0 with solvent := .Ss } else v
    | .Disabled => v
  else v

/-- Cells with (almost) only water (opm/models/blackoil/blackoilprimaryvariables.hh:636-655) -/
def adaptWaterFilled (L : Layout) (f : Fluid K) (swMaximum sw : K) (v : PriVars K) : PriVars K × Bool :=
  let v := if f.waterActive then v.set L.waterSwitchIdx (min swMaximum sw) else v
  let v := if 0 ≤ L.compositionSwitchIdx then v.set L.compositionSwitchIdx 0 else v
  let changed := decide (v.gas ≠ .Sg)
  (if changed ∧ 0 ≤ L.compositionSwitchIdx then { v with gas := .Sg } else v, changed)

/-- `pcFactor_` (opm/models/blackoil/blackoilprimaryvariables.hh:657-666) -/
def pcFactor (L : Layout) (f : Fluid K) (v : PriVars K) : K :=
  match f.pcfact with
  | some table =>
    if v.brine = .Sp then table (min (1 - (if 0 ≤ L.saltConcentrationIdx then v.val L.saltConcentrationIdx else 0)) 1) else 1
  | none => 1

/-- The pressure of the gas phase for deciding about vaporized water (opm/models/blackoil/blackoilprimaryvariables.hh:673-681 and 718-726) -/
def gasPressureForWater (L : Layout) (f : Fluid K) (pcF sg : K) (v : PriVars K) : K :=
  if v.pressure = .Po then
    let so := 1 - sg - solventSaturation L v
    pressure L f v + pcF * (f.pcGas so (sg + solventSaturation L v) 0 - f.pcOil so (sg + solventSaturation L v) 0)
  else pressure L f v

/-- The part of the water (opm/models/blackoil/blackoilprimaryvariables.hh:668-772) -/
def adaptWater (L : Layout) (f : Fluid K) (eps T salt pcF sw sg : K) (v : PriVars K) : PriVars K × Bool :=
  match v.water with
  | .Sw =>
    if sw < -eps ∧ eps < sg ∧ f.vaporizedWater then
      ({ v.set L.waterSwitchIdx (f.rvwSat T (gasPressureForWater L f pcF sg v) salt) with water := .Rvw }, true)
    else if sg < -eps ∧ eps < sw ∧ f.dissolvedGasInWater then
      let so := 1 - sw - solventSaturation L v
      let pw := pressure L f v + pcF * (f.pcWater so 0 sw - f.pcGas so 0 sw)
      (setScaledPressure L f
        { v.set L.waterSwitchIdx (min (f.rswSat T pw salt) f.maxGasDissolutionFactor) with water := .Rsw, pressure := .Pw } pw, true)
    else (v, false)
  | .Rvw =>
    if f.rvwSat T (gasPressureForWater L f pcF sg v) salt * (1 + eps) < v.val L.waterSwitchIdx then
      ({ v.set L.waterSwitchIdx 0 with water := .Sw }, true)
    else (v, false)
  | .Rsw =>
    let pw := pressure L f v
    if min (f.rswSat T pw salt) f.maxGasDissolutionFactor < v.val L.waterSwitchIdx then
      let pg := pw + pcF * (f.pcGas 0 0 1 - f.pcWater 0 0 1)
      (setScaledPressure L f { v.set L.waterSwitchIdx 1 with water := .Sw, pressure := .Pg } pg, true)
    else (v, false)
  | .Disabled => (v, false)

/-- The saturated gas dissolution factor of oil (opm/models/blackoil/blackoilprimaryvariables.hh:789-797,842-850) -/
def rsLimit (L : Layout) (f : Fluid K) (T po so : K) (v : PriVars K) : K :=
  if 0 ≤ L.zFractionIdx then f.extboRs po (zFraction L v) else f.rsSat T po so (max so f.maxOilSaturation)

/-- The saturated oil vaporization factor of gas (opm/models/blackoil/blackoilprimaryvariables.hh:820-828,868-876) -/
def rvLimit (L : Layout) (f : Fluid K) (T pg : K) (v : PriVars K) : K :=
  if 0 ≤ L.zFractionIdx then f.extboRv pg (zFraction L v) else f.rvSat T pg 0 f.maxOilSaturation

/-- The part of the gas (opm/models/blackoil/blackoilprimaryvariables.hh:782-906).  The two conditions of `Sg` exclude each other, because the first one
needs a negative and the second one a positive gas saturation. -/
def adaptGas (L : Layout) (f : Fluid K) (eps T pcF sw sg : K) (v : PriVars K) : PriVars K × Bool :=
  match v.gas with
  | .Sg =>
    let s := 1 - sw - solventSaturation L v
    if sg < -eps ∧ 0 < s ∧ f.dissolvedGas then
      ({ v.set L.compositionSwitchIdx (min f.maxGasDissolutionFactor (rsLimit L f T (pressure L f v) s v)) with gas := .Rs }, true)
    else if 1 - sw - solventSaturation L v - sg < -eps ∧ 0 < sg ∧ f.vaporizedOil then
      let pg := pressure L f v + pcF *
        (f.pcGas 0 (sg + solventSaturation L v) sw - f.pcOil 0 (sg + solventSaturation L v) sw)
      let v' := setScaledPressure L f { v with pressure := .Pg } pg
      ({ v'.set L.compositionSwitchIdx (min f.maxOilVaporizationFactor (rvLimit L f T pg v')) with gas := .Rv }, true)
    else (v, false)
  | .Rs =>
    let so := 1 - sw - solventSaturation L v
    if min f.maxGasDissolutionFactor (rsLimit L f T (pressure L f v) so v * (1 + eps)) < v.val L.compositionSwitchIdx then
      ({ v.set L.compositionSwitchIdx 0 with gas := .Sg }, true)
    else (v, false)
  | .Rv =>
    let pg := pressure L f v
    if min f.maxOilVaporizationFactor (rvLimit L f T pg v * (1 + eps)) < v.val L.compositionSwitchIdx then
      let sg2 := 1 - sw - solventSaturation L v
      let po := pg + pcF * (f.pcOil 0 (sg2 + solventSaturation L v) sw - f.pcGas 0 (sg2 + solventSaturation L v) sw)
      ((setScaledPressure L f { v with gas := .Sg, pressure := .Po } po).set L.compositionSwitchIdx sg2, true)
    else (v, false)
  | .Disabled => (v, false)

/-- `adaptPrimaryVariables` (opm/models/blackoil/blackoilprimaryvariables.hh:549-909): the new variables and whether it reports a change.  Assertions are
not modelled. -/
def adapt (L : Layout) (f : Fluid K) (swMaximum thresholdWaterFilledCell eps : K) (v : PriVars K) : PriVars K × Bool :=
  if v.water = .Disabled ∧ v.gas = .Disabled then (v, false)
  else
    let T := temperature L f v
    let sw := readSw L v
    let sg := readSg L f v
    let b := adaptBrine L f eps v
    let v1 := adaptSolvent L f eps T b.2 b.1
    if thresholdWaterFilledCell ≤ sw ∧ ¬f.dissolvedGasInWater then adaptWaterFilled L f swMaximum sw v1
    else
      let pcF := pcFactor L f v1
      let w := adaptWater L f eps T b.2 pcF sw sg v1
      let g := adaptGas L f eps T pcF sw sg w.1
      (g.1, w.2 || g.2)

/-! ### Projecting saturations -/

/-- `std::min(std::max(x, 0.0), 1.0)` -/
def clamp01 (x : K) : K := min (max x 0) 1

/-- `chopAndNormalizeSaturations` (opm/models/blackoil/blackoilprimaryvariables.hh:911-945).  A division by zero is the outcome `none`. -/
def chopAndNormalize (L : Layout) (v : PriVars K) : Option (PriVars K × Bool) :=
  if v.water = .Disabled ∧ v.gas = .Disabled then some (v, false)
  else
    let sw := if v.water = .Sw then v.val L.waterSwitchIdx else 0
    let sg := if v.gas = .Sg then v.val L.compositionSwitchIdx else 0
    let ss := if v.solvent = .Ss then v.val L.solventSaturationIdx else 0
    let so := clamp01 (1 - sw - sg - ss)
    let st := clamp01 sw + so + clamp01 sg + clamp01 ss
    if st = 0 then none
    else
      let v := if v.water = .Sw then v.set L.waterSwitchIdx (clamp01 sw / st) else v
      let v := if v.gas = .Sg then v.set L.compositionSwitchIdx (clamp01 sg / st) else v
      let v := if v.solvent = .Ss then v.set L.solventSaturationIdx (clamp01 ss / st) else v
      some (v, decide (st ≠ 1))

/-! ### Newton updates -/

/-- The run-time parameters of the black-oil Newton method and the bounds of MICP variables at one degree of freedom
(opm/models/blackoil/blackoilnewtonmethod.hh:74-86,382-391) -/
structure Limits (K : Type) where
  dpMaxRel : K
  dsMax : K
  maxTempChange : K
  tempMin : K
  tempMax : K
  pressMin : K
  pressMax : K
  densityBiofilm : K
  maxOxygen : K
  maxUrea : K
  maxSolid : K

/-- The change of the oil (or rather, of the remaining) saturation and the largest of all (opm/models/blackoil/blackoilnewtonmethod.hh:244-270) -/
def satAlpha (L : Layout) (l : Limits K) (cur : PriVars K) (update : ℤ → K) : K :=
  let deltaSw := if cur.water = .Sw then update L.waterSwitchIdx else 0
  let deltaSg := if cur.gas = .Sg then update L.compositionSwitchIdx else 0
  let deltaSs := if cur.solvent = .Ss then update L.solventSaturationIdx else 0
  let deltaSo := 0 - deltaSw - deltaSg - deltaSs
  let maxSatDelta := max (max (max |deltaSg| |deltaSo|) |deltaSw|) |deltaSs|
  if l.dsMax < maxSatDelta then l.dsMax / maxSatDelta else 1

/-- `signum` (opm/models/utils/signum.hh): −1, 0 or 1 -/
def signum (x : K) : K := (if 0 < x then 1 else 0) - (if x < 0 then 1 else 0)

/-- `sign * std::min(std::abs(delta), bound)` -/
def limitAbs (delta bound : K) : K := (if 0 ≤ delta then 1 else -1) * min |delta| bound

/-- `std::clamp` -/
def clamp (x lo hi : K) : K := if x < lo then lo else if hi < x then hi else x

/-- The limited change of the primary variable `i` (opm/models/blackoil/blackoilnewtonmethod.hh:279-343) -/
def limitDelta (L : Layout) (f : Fluid K) (l : Limits K) (cur : PriVars K) (update : ℤ → K) (i : ℤ) : K :=
  let delta := update i
  let alpha := satAlpha L l cur update
  if i = L.pressureSwitchIdx then
    if l.dpMaxRel * cur.val i < |delta| then signum delta * l.dpMaxRel * cur.val i else delta
  else if i = L.waterSwitchIdx then
    if cur.water = .Sw then delta * alpha else if cur.val L.waterSwitchIdx < delta then cur.val L.waterSwitchIdx else delta
  else if i = L.compositionSwitchIdx then
    if cur.gas = .Sg then delta * alpha
    else if cur.val L.compositionSwitchIdx < delta then cur.val L.compositionSwitchIdx else delta
  else if 0 ≤ L.solventSaturationIdx ∧ i = L.solventSaturationIdx then
    if cur.solvent = .Ss then delta * alpha
    else if cur.val L.solventSaturationIdx < delta then cur.val L.solventSaturationIdx else delta
  else if 0 ≤ L.zFractionIdx ∧ i = L.zFractionIdx then clamp delta (cur.val L.zFractionIdx - 1) (cur.val L.zFractionIdx)
  else if 0 ≤ L.polymerMoleWeightIdx ∧ i = L.polymerMoleWeightIdx then limitAbs delta 100 * alpha
  else if 0 ≤ L.temperatureIdx ∧ i = L.temperatureIdx then limitAbs delta l.maxTempChange
  else if 0 ≤ L.saltConcentrationIdx ∧ i = L.saltConcentrationIdx ∧ f.saltPrecipitation ∧ cur.brine = .Sp then
    limitAbs delta (1 / 10)
  else delta

/-- One pass of the loop: the new value of the variable `i` (opm/models/blackoil/blackoilnewtonmethod.hh:345-408).  `next` are the new values so far. -/
def updateVar (L : Layout) (f : Fluid K) (l : Limits K) (cur : PriVars K) (update : ℤ → K) (i : ℤ) (next : ℤ → K) : K :=
  let x := cur.val i - limitDelta L f l cur update i
  let x := if 0 ≤ L.solventSaturationIdx ∧ i = L.solventSaturationIdx ∧ cur.solvent = .Ss then min (max x 0) 1 else x
  let x := if 0 ≤ L.zFractionIdx ∧ i = L.zFractionIdx then min (max x 0) 1 else x
  let x := if 0 ≤ L.polymerConcentrationIdx ∧ i = L.polymerConcentrationIdx then max x 0 else x
  let x := if 0 ≤ L.polymerMoleWeightIdx ∧ i = L.polymerMoleWeightIdx then
      if (if L.polymerConcentrationIdx = i then max x 0 else next L.polymerConcentrationIdx) < 1 / 10000000000 then 0 else max x 0
    else x
  let x := if 0 ≤ L.foamConcentrationIdx ∧ i = L.foamConcentrationIdx then max x 0 else x
  let x := if 0 ≤ L.saltConcentrationIdx ∧ i = L.saltConcentrationIdx then
      let x := if ¬f.saltPrecipitation ∨ cur.brine = .Cs then max x 0 else x
      if f.saltPrecipitation ∧ cur.brine = .Sp then min x (1 - 1 / 100000000) else x
    else x
  let x := if 0 ≤ L.temperatureIdx ∧ i = L.temperatureIdx then clamp x l.tempMin l.tempMax else x
  let x := if i = L.pressureSwitchIdx then clamp x l.pressMin l.pressMax else x
  let x := if 0 ≤ L.microbialConcentrationIdx ∧ i = L.microbialConcentrationIdx then clamp x 0 l.densityBiofilm else x
  let x := if 0 ≤ L.microbialConcentrationIdx ∧ i = L.oxygenConcentrationIdx then clamp x 0 l.maxOxygen else x
  let x := if 0 ≤ L.microbialConcentrationIdx ∧ i = L.ureaConcentrationIdx then clamp x 0 l.maxUrea else x
  let x := if 0 ≤ L.microbialConcentrationIdx ∧ i = L.biofilmConcentrationIdx then clamp x 0 l.maxSolid else x
  if 0 ≤ L.microbialConcentrationIdx ∧ i = L.calciteConcentrationIdx then clamp x 0 l.maxSolid else x

/-- The loop over all variables (opm/models/blackoil/blackoilnewtonmethod.hh:271-408); `next` is what `nextValue` is before it. -/
def limitedUpdate (L : Layout) (f : Fluid K) (l : Limits K) (cur : PriVars K) (update : ℤ → K) (next : PriVars K) : PriVars K :=
  { next with
    val := (List.range L.numEq).foldl
      (fun nv (i : ℕ) => Function.update nv (i : ℤ) (updateVar L f l cur update i nv)) next.val }

/-- The remaining parameters of `updatePrimaryVariables_` -/
structure SwitchParams (K : Type) where
  waterSaturationMax : K
  waterOnlyThreshold : K
  oscillationThreshold : K
  project : Bool

/-- `updatePrimaryVariables_` (opm/models/blackoil/blackoilnewtonmethod.hh:226-427): the new variables and the new flag whether the degree of freedom was
switched; `none` if the projection divides by zero.  `next` is a copy of the current variables (the Newton method copies the
solution), so that the meanings of both are the same. -/
def updatePrimaryVariables (L : Layout) (f : Fluid K) (l : Limits K) (s : SwitchParams K) (wasSwitched : Bool) (cur : PriVars K)
    (update : ℤ → K) : Option (PriVars K × Bool) :=
  let a := adapt L f s.waterSaturationMax s.waterOnlyThreshold (if wasSwitched then s.oscillationThreshold else 0)
    (limitedUpdate L f l cur update cur)
  if s.project then (chopAndNormalize L a.1).map fun x => (x.1, a.2) else some a

/-! ### The saturations of the fluid state -/

/-- Saturations of water, oil and gas and the solvent saturation -/
structure Saturations (K : Type) where
  water : K
  oil : K
  gas : K
  solvent : K

/-- The saturations which the intensive quantities set (opm/models/blackoil/blackoilintensivequantities.hh:203-254); those of phases which are not active
are not set there, and are zero here. -/
def saturations (L : Layout) (f : Fluid K) (v : PriVars K) : Saturations K :=
  let sw := if f.waterActive then
      match v.water with
      | .Sw => v.val L.waterSwitchIdx
      | .Rsw => 1
      | .Disabled => 1
      | .Rvw => 0
    else 0
  let sg := if f.gasActive then
      match v.gas with
      | .Sg => v.val L.compositionSwitchIdx
      | .Rv => 1 - sw
      | .Disabled => if f.waterActive then 1 - sw else 1
      | .Rs => 0
    else 0
  let ss := if 0 ≤ L.solventSaturationIdx ∧ v.solvent = .Ss then v.val L.solventSaturationIdx else 0
  { water := sw
    gas := if f.oilActive then sg else if f.gasActive then sg - ss else sg
    oil := if f.oilActive then 1 - sw - sg - ss else 0
    solvent := ss }

end

end Verif.BlackOil
