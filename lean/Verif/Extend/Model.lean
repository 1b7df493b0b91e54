import Mathlib.Algebra.Order.Field.Basic
import Mathlib.Data.Rat.Defs

set_option autoImplicit false
set_option linter.unusedSectionVars false
/-
Model of the storage and flux terms of the extension modules of the black-oil model: solvent, extended black-oil (z fraction),
polymer, foam, brine and microbially induced calcite precipitation.  Numbers are exact; only values, no derivatives (the
branches `upIdx == inIdx` of the code differ in the derivatives only).
-/
namespace Verif.Extend

variable {K : Type} [Field K] [LinearOrder K]

/-- What the extension modules need of the intensive quantities of a cell. -/
structure Iq (K : Type) where
  porosity : K
  satWater : K
  satOil : K
  satGas : K
  invBWater : K
  invBOil : K
  invBGas : K
  rs : K
  densityWater : K
  solventSaturation : K
  solventInvB : K
  solventDensity : K
  rsSolw : K
  zFraction : K
  xVolume : K
  yVolume : K
  polymerConcentration : K
  polymerDeadPoreVolume : K
  polymerRockDensity : K
  polymerAdsorption : K
  polymerViscosityCorrection : K
  polymerMoleWeight : K
  foamConcentration : K
  foamRockDensity : K
  foamAdsorbed : K
  saltConcentration : K
  saltSaturation : K
  saltDensity : K
  microbes : K
  oxygen : K
  urea : K
  biofilm : K
  calcite : K

/-- The volume flux of a phase over a face from the interior to the exterior cell, and whether the exterior cell is upstream
(`volumeFlux`, `upstreamIndex`, `solventVolumeFlux`, `solventUpstreamIndex` of the extensive quantities). -/
structure PhaseFlux (K : Type) where
  volume : K
  exteriorUp : Bool

/-- The extensive quantities of a face. -/
structure Ext (K : Type) where
  water : PhaseFlux K
  oil : PhaseFlux K
  gas : PhaseFlux K
  solvent : PhaseFlux K
  polymerShear : K
  waterShear : K

/-- The upstream cell. -/
def PhaseFlux.up (f : PhaseFlux K) (inside outside : Iq K) : Iq K := if f.exteriorUp then outside else inside

/-- The limit below which the amount of the carrying phase is not allowed to fall, e.g. opm/models/blackoil/blackoilpolymermodules.hh:485. -/
def floor : K := 1 / 10000000000

/-! ### Solvent -/

/-- `BlackOilSolventModule::addStorage`, opm/models/blackoil/blackoilsolventmodules.hh lines 429-460. -/
def solventStorage (surfaceVolume soluble : Bool) (q : Iq K) : K :=
  if surfaceVolume then
    q.porosity * q.solventSaturation * q.solventInvB
      + (if soluble then q.porosity * q.satWater * q.invBWater * q.rsSolw else 0)
  else
    q.porosity * q.solventSaturation * q.solventDensity
      + (if soluble then q.porosity * q.satWater * q.densityWater * q.rsSolw else 0)

/-- `BlackOilSolventModule::computeFlux`, opm/models/blackoil/blackoilsolventmodules.hh lines 462-525: the upstream cell is
that of the solvent, for the solvent which is dissolved in water as well. -/
def solventFlux (surfaceVolume soluble : Bool) (e : Ext K) (inside outside : Iq K) : K :=
  let up := e.solvent.up inside outside
  if surfaceVolume then
    e.solvent.volume * up.solventInvB + (if soluble then e.water.volume * up.invBWater * up.rsSolw else 0)
  else
    e.solvent.volume * up.solventDensity + (if soluble then e.water.volume * up.densityWater * up.rsSolw else 0)

/-! ### Extended black-oil model -/

/-- `BlackOilExtboModule::addStorage`, opm/models/blackoil/blackoilextbomodules.hh lines 319-352: the terms of the z equation and
of the gas equation (the one before it); `w` is the weight of the regularisation, 1e-6. -/
def extboStorage (dissolvedGas : Bool) (w : K) (q : Iq K) : K × K :=
  let s := q.porosity * q.yVolume * q.satGas * q.invBGas
  let s := if dissolvedGas then s + q.porosity * q.xVolume * q.rs * q.satOil * q.invBOil else s
  (s + (w * (1 - q.zFraction) + w * q.porosity * q.satGas * q.invBGas), w * q.zFraction)

/-- `BlackOilExtboModule::computeFlux`, opm/models/blackoil/blackoilextbomodules.hh lines 354-405. -/
def extboFlux (dissolvedGas : Bool) (e : Ext K) (inside outside : Iq K) : K :=
  let upGas := e.gas.up inside outside
  let upOil := e.oil.up inside outside
  e.gas.volume * upGas.yVolume * upGas.invBGas
    + (if dissolvedGas then e.oil.volume * upOil.xVolume * upOil.rs * upOil.invBOil else 0)

/-! ### Polymer -/

/-- `accumulationPolymer`, opm/models/blackoil/blackoilpolymermodules.hh lines 477-499. -/
def polymerAccumulation (q : Iq K) : K :=
  let surfaceVolumeWater := max (q.satWater * q.invBWater * q.porosity) floor
  surfaceVolumeWater * q.polymerConcentration * (1 - q.polymerDeadPoreVolume)
    + (1 - q.porosity) * q.polymerRockDensity * q.polymerAdsorption

/-- `BlackOilPolymerModule::addStorage`, opm/models/blackoil/blackoilpolymermodules.hh lines 471-510: the polymer equation and
that of the molecular weight. -/
def polymerStorage (q : Iq K) : K × K :=
  (polymerAccumulation q, max (polymerAccumulation q) floor * q.polymerMoleWeight)

/-- `BlackOilPolymerModule::computeFlux`, opm/models/blackoil/blackoilpolymermodules.hh lines 512-565: the water flux (which
was computed before), the polymer flux and that of the molecular weight. -/
def polymerFlux (waterFlux : K) (e : Ext K) (inside outside : Iq K) : K × K × K :=
  let up := e.water.up inside outside
  let poly := e.water.volume * up.invBWater * up.polymerViscosityCorrection / e.polymerShear * up.polymerConcentration
  (waterFlux / e.waterShear, poly, poly * up.polymerMoleWeight)

/-! ### Foam -/

/-- The phase which carries the foam. -/
inductive Carrier where
  | water | gas | solvent
deriving DecidableEq

/-- Saturation of the phase. -/
def Iq.sat (q : Iq K) : Carrier → K
  | .water => q.satWater
  | .gas => q.satGas
  | .solvent => q.solventSaturation

/-- Inverse formation volume factor of the phase. -/
def Iq.invB (q : Iq K) : Carrier → K
  | .water => q.invBWater
  | .gas => q.invBGas
  | .solvent => q.solventInvB

/-- Flux of the phase. -/
def Ext.flux (e : Ext K) : Carrier → PhaseFlux K
  | .water => e.water
  | .gas => e.gas
  | .solvent => e.solvent

/-- `BlackOilFoamModule::addStorage`, opm/models/blackoil/blackoilfoammodules.hh lines 246-285, with solvent enabled if it is the
transport phase. -/
def foamStorage (c : Carrier) (q : Iq K) : K :=
  let surfaceVolume := max (q.porosity * (q.sat c * q.invB c)) floor
  surfaceVolume * q.foamConcentration + (1 - q.porosity) * q.foamRockDensity * q.foamAdsorbed

/-- `BlackOilFoamModule::computeFlux`, opm/models/blackoil/blackoilfoammodules.hh lines 287-358. -/
def foamFlux (c : Carrier) (e : Ext K) (inside outside : Iq K) : K :=
  let up := (e.flux c).up inside outside
  (e.flux c).volume * up.invB c * up.foamConcentration

/-! ### Brine -/

/-- `BlackOilBrineModule::addStorage`, opm/models/blackoil/blackoilbrinemodules.hh lines 227-258; `eps` is 1e-8. -/
def brineStorage (precipitation : Bool) (eps : K) (q : Iq K) : K :=
  let surfaceVolumeWater := max (q.satWater * q.invBWater * q.porosity) floor
  let massBrine := surfaceVolumeWater * q.saltConcentration
  if precipitation then
    massBrine + q.porosity / (1 - q.saltSaturation + eps) * q.saltDensity * q.saltSaturation
  else massBrine

/-- `BlackOilBrineModule::computeFlux`, opm/models/blackoil/blackoilbrinemodules.hh lines 260-286. -/
def brineFlux (e : Ext K) (inside outside : Iq K) : K :=
  let up := e.water.up inside outside
  e.water.volume * up.invBWater * up.saltConcentration

/-! ### Microbially induced calcite precipitation -/

/-- The five additional equations. -/
inductive Micp where
  | microbes | oxygen | urea | biofilm | calcite
deriving DecidableEq

/-- Concentrations (volume fractions for biofilm and calcite). -/
def Iq.micp (q : Iq K) : Micp → K
  | .microbes => q.microbes
  | .oxygen => q.oxygen
  | .urea => q.urea
  | .biofilm => q.biofilm
  | .calcite => q.calcite

/-- Which of them are dissolved or suspended in the water. -/
def Micp.mobile : Micp → Bool
  | .microbes => true
  | .oxygen => true
  | .urea => true
  | .biofilm => false
  | .calcite => false

/-- `BlackOilMICPModule::addStorage`, opm/models/blackoil/blackoilmicpmodules.hh lines 239-269. -/
def micpStorage (q : Iq K) (c : Micp) : K :=
  let surfaceVolumeWater := max q.porosity floor
  if c.mobile then surfaceVolumeWater * q.micp c else q.micp c

/-- `BlackOilMICPModule::computeFlux`, opm/models/blackoil/blackoilmicpmodules.hh lines 271-297; the entries of the other
equations stay at the zero they are initialised with. -/
def micpFlux (e : Ext K) (inside outside : Iq K) (c : Micp) : K :=
  if c.mobile then e.water.volume * (e.water.up inside outside).micp c else 0

end Verif.Extend
