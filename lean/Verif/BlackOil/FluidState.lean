import Verif.BlackOil.PrimaryVars

/-
How a fluid state is stored in black-oil primary variables (`assignNaive`, opm/models/blackoil/blackoilprimaryvariables.hh) and how the intensive quantities
make a fluid state of primary variables (`update`, opm/models/blackoil/blackoilintensivequantities.hh): saturations, pressures, dissolution and vaporization
factors.
-/

set_option autoImplicit false

namespace Verif.BlackOil

variable {K : Type} [Field K] [LinearOrder K]

/-- A fluid state, as far as it is used here.  Values of phases which are not active have no meaning. -/
structure FluidState (K : Type) where
  temperature : K
  sw : K
  so : K
  sg : K
  pw : K
  po : K
  pg : K
  /-- gas dissolved in oil, oil vaporized in gas, water vaporized in gas, gas dissolved in water -/
  rs : K
  rv : K
  rvw : K
  rsw : K
  /-- precipitated salt -/
  saltSaturation : K
  deriving DecidableEq

/-! ### Storing -/

/-- `FluidSystem::numActivePhases() == 1` -/
def oneActivePhase (f : Fluid K) : Bool := f.oilActive.toNat + f.gasActive.toNat + f.waterActive.toNat == 1

/-- The meaning of the pressure (opm/models/blackoil/blackoilprimaryvariables.hh:402-427) -/
def choosePressure (f : Fluid K) (gasPresent oilPresent waterPresent : Bool) : PressureMeaning :=
  if gasPresent && f.vaporizedOil && !oilPresent then .Pg
  else if f.oilActive then .Po
  else if waterPresent && f.dissolvedGasInWater && !gasPresent then .Pw
  else if f.gasActive then .Pg
  else .Pw

/-- The meaning of the water variable (opm/models/blackoil/blackoilprimaryvariables.hh:429-443) -/
def chooseWater (f : Fluid K) (gasPresent waterPresent : Bool) : WaterMeaning :=
  if waterPresent && gasPresent then .Sw
  else if gasPresent && f.vaporizedWater then .Rvw
  else if waterPresent && f.dissolvedGasInWater then .Rsw
  else if f.waterActive && !oneActivePhase f then .Sw
  else .Disabled

/-- The meaning of the gas variable (opm/models/blackoil/blackoilprimaryvariables.hh:445-460) -/
def chooseGas (f : Fluid K) (gasPresent oilPresent : Bool) : GasMeaning :=
  if gasPresent && oilPresent then .Sg
  else if oilPresent && f.dissolvedGas then .Rs
  else if gasPresent && f.vaporizedOil then .Rv
  else if f.gasActive && f.oilActive then .Sg
  else .Disabled

/-- `assignNaive` (opm/models/blackoil/blackoilprimaryvariables.hh:395-543).  The values of the pressure, of water and of gas are stored in this order;
`EnergyModule::assignPrimaryVars` (opm/models/blackoil/blackoilenergymodules.hh:255-266) stores the temperature before.  The salt and solvent variables are
not touched. -/
def assignNaive (L : Layout) (f : Fluid K) (fs : FluidState K) (v : PriVars K) : PriVars K :=
  let gasPresent := f.gasActive && decide (0 < fs.sg)
  let oilPresent := f.oilActive && decide (0 < fs.so)
  let waterPresent := f.waterActive && decide (0 < fs.sw)
  let v := if 0 ≤ L.temperatureIdx then v.set L.temperatureIdx fs.temperature else v
  let v := { v with
    pressure := choosePressure f gasPresent oilPresent waterPresent
    water := chooseWater f gasPresent waterPresent
    gas := chooseGas f gasPresent oilPresent
    brine := if f.saltPrecipitation then (if 0 < fs.saltSaturation then .Sp else .Cs) else .Disabled }
  let v := setScaledPressure L f v (match v.pressure with | .Po => fs.po | .Pg => fs.pg | .Pw => fs.pw)
  let v := match v.water with
    | .Sw => v.set L.waterSwitchIdx fs.sw
    | .Rvw => v.set L.waterSwitchIdx fs.rvw
    | .Rsw => v.set L.waterSwitchIdx fs.rsw
    | .Disabled => v
  match v.gas with
  | .Sg => v.set L.compositionSwitchIdx fs.sg
  | .Rs => v.set L.compositionSwitchIdx fs.rs
  | .Rv => v.set L.compositionSwitchIdx fs.rv
  | .Disabled => v

/-! ### Reading -/

/-- The gas saturation which the capillary pressures get: that of gas and solvent together, unless there is hardly any solvent
(opm/models/blackoil/blackoilsolventmodules.hh:808-829, `cutOff`) -/
def gasSatForPc (s : Saturations K) : K := if s.solvent < 1 / 10 ^ 12 then s.gas else s.gas + s.solvent

/-- The capillary pressures of oil, gas and water, with the factor for precipitated salt (opm/models/blackoil/blackoilintensivequantities.hh:257-276) -/
def readPc (L : Layout) (f : Fluid K) (v : PriVars K) : K × K × K :=
  let s := saturations L f v
  (pcFactor L f v * f.pcOil s.oil (gasSatForPc s) s.water, pcFactor L f v * f.pcGas s.oil (gasSatForPc s) s.water,
    pcFactor L f v * f.pcWater s.oil (gasSatForPc s) s.water)

/-- The pressures of oil, gas and water (opm/models/blackoil/blackoilintensivequantities.hh:278-296) -/
def readPressures (L : Layout) (f : Fluid K) (v : PriVars K) : K × K × K :=
  let pc := readPc L f v
  let ref := match v.pressure with | .Po => pc.1 | .Pg => pc.2.1 | .Pw => pc.2.2
  (pressure L f v + (pc.1 - ref), pressure L f v + (pc.2.1 - ref), pressure L f v + (pc.2.2 - ref))

/-- The salt concentration of the fluid state (opm/models/blackoil/blackoilbrinemodules.hh:445-475); zero without the brine module -/
def readSalt (L : Layout) (f : Fluid K) (v : PriVars K) : K :=
  if 0 ≤ L.saltConcentrationIdx then
    if f.saltPrecipitation ∧ v.brine = .Sp then f.saltSol else v.val L.saltConcentrationIdx
  else 0

/-- The fluid state (opm/models/blackoil/blackoilintensivequantities.hh:196-371).  A factor which is not set is zero here.  The saturated factors of the fluid
system are those of the PVT relations, of the values of the fluid state. -/
def read (L : Layout) (f : Fluid K) (v : PriVars K) : FluidState K :=
  let s := saturations L f v
  let p := readPressures L f v
  let T := temperature L f v
  let soMax := if f.oilActive then max s.oil f.maxOilSaturation else 0
  { temperature := T
    sw := s.water
    so := s.oil
    sg := s.gas
    po := p.1
    pg := p.2.1
    pw := p.2.2
    rs := if v.gas = .Rs then v.val L.compositionSwitchIdx
      else if f.dissolvedGas then
        min f.maxGasDissolutionFactor (if 0 ≤ L.zFractionIdx then f.extboRs p.1 (zFraction L v) else f.rsSat T p.1 s.oil soMax)
      else 0
    rv := if v.gas = .Rv then v.val L.compositionSwitchIdx
      else if f.vaporizedOil then
        min f.maxOilVaporizationFactor (if 0 ≤ L.zFractionIdx then f.extboRv p.2.1 (zFraction L v) else f.rvSat T p.2.1 s.oil soMax)
      else 0
    rvw := if v.water = .Rvw then v.val L.waterSwitchIdx
      else if f.vaporizedWater then f.rvwSat T p.2.1 (readSalt L f v) else 0
    rsw := if v.water = .Rsw then v.val L.waterSwitchIdx
      else if f.dissolvedGasInWater then min f.maxGasDissolutionFactor (f.rswSat T p.2.2 (readSalt L f v)) else 0
    saltSaturation := if f.saltPrecipitation ∧ v.brine = .Sp then v.val L.saltConcentrationIdx else 0 }

end Verif.BlackOil
