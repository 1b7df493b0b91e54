import Mathlib.Algebra.Field.Basic
import Mathlib.Algebra.Order.Field.Basic

set_option autoImplicit false
/-
Model of the energy equation of the black-oil model: `BlackOilEnergyModule` (opm/models/blackoil/blackoilenergymodules.hh
lines 139-322), `BlackOilEnergyExtensiveQuantities` (lines 528-668), and where the local residuals and boundary rates use them.
Only values, no derivatives.
-/
namespace Verif.Extend.Energy

variable {K : Type} [Field K] [LinearOrder K]

/-- What a cell has of one active phase: saturation, density, internal energy, enthalpy. -/
structure Phase (K : Type) where
  sat : K
  rho : K
  internal : K
  enthalpy : K

/-- What a cell has: its active phases, porosity, rock, temperature and thermal conductivity. -/
structure Cell (K : Type) where
  phases : List (Phase K)
  porosity : K
  rockFraction : K
  rockEnergy : K
  temperature : K
  conductivity : K

/-- `addStorage`, opm/models/blackoil/blackoilenergymodules.hh lines 139-166. -/
def storage (scale : K) (c : Cell K) : K :=
  (c.phases.foldl (fun s p => s + c.porosity * p.sat * p.internal * p.rho) 0 + c.rockFraction * c.rockEnergy) * scale

/-- `addPhaseEnthalpyFluxes_`, opm/models/blackoil/blackoilenergymodules.hh lines 207-216, for all active phases: their volume
fluxes and the phase in the upstream cell. -/
def enthalpyFlux (flows : List (K × Phase K)) : K := flows.foldl (fun s f => s + f.2.enthalpy * f.2.rho * f.1) 0

/-- `H`, opm/models/blackoil/blackoilenergymodules.hh lines 568-580. -/
def thermalTrans (inH exH : K) : K := if 0 < inH ∧ 0 < exH then 1 / (1 / inH + 1 / exH) else 0

/-- `updateEnergy`, opm/models/blackoil/blackoilenergymodules.hh lines 531-583: heat conduction per area of the face. -/
def conduction (inside outside : Cell K) (inAlpha outAlpha faceArea : K) : K :=
  (outside.temperature - inside.temperature)
    * (- thermalTrans (inside.conductivity * inAlpha) (outside.conductivity * outAlpha) / faceArea)

/-- `updateEnergyBoundary`, opm/models/blackoil/blackoilenergymodules.hh lines 631-665. -/
def conductionBoundary (inside : Cell K) (alpha temperature : K) : K :=
  if 0 < inside.conductivity then (temperature - inside.temperature) * inside.conductivity * (- alpha) else 0

/-- The energy entry of the flux, `computeFlux` (opm/models/blackoil/blackoilenergymodules.hh lines 168-195) called by
opm/models/blackoil/blackoillocalresidual.hh line 226; convective mixing adds to it afterwards (line 240). -/
def flux (scale mixing : K) (flows : List (K × Phase K)) (heat : K) : K := (enthalpyFlux flows + heat) * scale + mixing

/-- The energy entry of the flux, opm/models/blackoil/blackoillocalresidualtpfa.hh lines 384-460: convective mixing (line 425) comes
before `addHeatFlux` (opm/models/blackoil/blackoilenergymodules.hh lines 197-205). -/
def fluxTpfa (scale mixing : K) (flows : List (K × Phase K)) (heat : K) : K := (enthalpyFlux flows + mixing + heat) * scale

/-- The energy entry of `setFreeFlow`, opm/models/blackoil/blackoilboundaryratevector.hh lines 94-192. -/
def freeFlow (scale : K) (flows : List (K × Phase K)) (heat : K) : K :=
  flows.foldl (fun s f => s + f.2.rho * f.1 * f.2.enthalpy * scale) 0 + heat * scale

/-- The energy entry of `setThermalFlow`, opm/models/blackoil/blackoilboundaryratevector.hh lines 247-270. -/
def thermalFlow (_scale heat : K) : K := heat

/-- The energy entries of `computeBoundaryFluxFree` and `computeBoundaryThermal`,
opm/models/blackoil/blackoillocalresidualtpfa.hh lines 561-676. -/
def freeFlowTpfa (scale : K) (flows : List (K × Phase K)) (heat : K) : K := (enthalpyFlux flows + heat) * scale

@[inherit_doc freeFlowTpfa]
def thermalFlowTpfa (scale heat : K) : K := (0 + heat) * scale

/-- `computeSource`, opm/models/blackoil/blackoillocalresidual.hh lines 246-260 and
opm/models/blackoil/blackoillocalresidualtpfa.hh lines 679-733. -/
def source (scale rate : K) : K := rate * scale

/-- The primary variables: the index of the temperature among `n` values. -/
structure Layout where
  n : ℕ
  temperatureIdx : Fin n

/-- `assignPrimaryVars` for a temperature, opm/models/blackoil/blackoilenergymodules.hh lines 247-252: the value is ignored. -/
def assignTemperature (l : Layout) (pv : Fin l.n → K) (_temperature : K) : Fin l.n → K :=
  Function.update pv l.temperatureIdx ((l.temperatureIdx : ℕ) : K)

/-- `assignPrimaryVars` for a fluid state, opm/models/blackoil/blackoilenergymodules.hh lines 257-263. -/
def assignFluidState (l : Layout) (pv : Fin l.n → K) (temperature : K) : Fin l.n → K :=
  Function.update pv l.temperatureIdx temperature

/-- `deserializeEntity`, opm/models/blackoil/blackoilenergymodules.hh lines 309-322: reads the temperature of the current solution;
`priVars1 = priVars0[temperatureIdx]` assigns it to every entry of the previous one. -/
def deserialize (l : Layout) (read : K) (pv0 _pv1 : Fin l.n → K) : (Fin l.n → K) × (Fin l.n → K) :=
  let pv0 := Function.update pv0 l.temperatureIdx read
  (pv0, fun _ => pv0 l.temperatureIdx)

end Verif.Extend.Energy
