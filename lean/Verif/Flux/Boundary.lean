import Verif.Flux.Trans
import Verif.Flux.Content
import Verif.Extend.Model

set_option autoImplicit false
set_option linter.unusedSectionVars false
/-
Model of the fluxes over the boundary of the domain of the transmissibility based flux module
(opm/models/common/transfluxmodule.hh) and of the entries of the additional black-oil modules in the free-flow boundary rates
(opm/models/blackoil/blackoilboundaryratevector.hh).  Numbers are exact; only values, no derivatives.
-/
namespace Verif.Flux

variable {K : Type} [Field K] [LinearOrder K]

/-- What the flux over a boundary face needs of the prescribed fluid state (one phase): pressure, density and viscosity, and
the relative permeability which the material law of the interior cell gives for it. -/
structure Prescribed (K : Type) where
  pressure : K
  density : K
  relPerm : K
  viscosity : K

/-- `pressureDifference_` of a boundary face, opm/models/common/transfluxmodule.hh:335-370; `zFace` is the last coordinate of
the integration position of the face. -/
def boundaryDifference (g zFace : K) (a : Cell K) (o : Prescribed K) : K :=
  let distZ := a.z - zFace
  let rhoAvg := (a.density + o.density) / 2
  (o.pressure + rhoAvg * (distZ * g)) - a.pressure

/-- Is the prescribed fluid the upstream one?  opm/models/common/transfluxmodule.hh:372-383. -/
def outsideUpstream (g zFace : K) (a : Cell K) (o : Prescribed K) : Bool := 0 < boundaryDifference g zFace a o

/-- `calculateBoundaryGradients_` and `calculateFluxes_`, opm/models/common/transfluxmodule.hh:323-418: the volume flux of a
phase out of the domain over a boundary face. -/
def transBoundaryFlux (g trans zFace : K) (a : Cell K) (o : Prescribed K) : K :=
  if outsideUpstream g zFace a o then boundaryDifference g zFace a o * (o.relPerm / o.viscosity) * (- trans)
  else boundaryDifference g zFace a o * a.mobility * (- trans)

/-- The entries of the rate vector which belong to the additional modules. -/
structure ModuleRates (K : Type) where
  solvent : K
  polymer : K
  microbes : K
  oxygen : K
  urea : K
  salt : K
  foam : K
  zFraction : K

/-- `setFreeFlow`, opm/models/blackoil/blackoilboundaryratevector.hh:93-202, entries of the additional modules: the vector is
zeroed (109), the loop over the phases touches the components only, solvent, polymer and the substances of the MICP module
are assigned at 169-187 from the quantities of the cell, and nothing is done for the brine, the foam and the extended black-oil
modules.  (No more than a few of the modules are switched on in one model; here all of them are.)  `solventFlux` and `waterFlux`
are the volume fluxes out of the domain. -/
def freeFlowModules (conserveSurfaceVolume : Bool) (solventFlux waterFlux : K) (inside : Extend.Iq K) : ModuleRates K :=
  let zero : ModuleRates K := ⟨0, 0, 0, 0, 0, 0, 0, 0⟩
  { zero with
    solvent := if conserveSurfaceVolume then solventFlux * inside.solventInvB else solventFlux * inside.solventDensity
    polymer := waterFlux * inside.polymerConcentration
    microbes := waterFlux * inside.microbes
    oxygen := waterFlux * inside.oxygen
    urea := waterFlux * inside.urea }

/-- The rates over a boundary face of the black-oil model with the transmissibility based fluxes: `cell p`, `out p` are the
quantities of phase `p` in the interior cell and of the prescribed fluid state. -/
def transFreeFlowRates (o : Options) (refDensity : Phase → K) (g trans zFace : K) (cell : Phase → Cell K) (out : Phase → Prescribed K)
    (inside outside : Fluid K) : Amounts K :=
  freeFlowRates o refDensity (fun p => transBoundaryFlux g trans zFace (cell p) (out p)) (fun p => (cell p).pressure)
    (fun p => (out p).pressure) inside outside

end Verif.Flux
