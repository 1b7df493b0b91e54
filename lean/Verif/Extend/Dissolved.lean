import Verif.Extend.Quantities
import Verif.Extend.Model

set_option autoImplicit false
/-
Model of the PVT quantities of the solvent and of the water in which it is dissolved, `solventPvtUpdate_`
(opm/models/blackoil/blackoilsolventmodules.hh lines 970-1030).  Only values, no derivatives; the mixing `effectiveProperties` (line 1024)
is in `Verif/Extend/ToddLongstaff.lean` and is the identity here, as it is without miscibility.
-/
namespace Verif.Extend.IQ

open Verif.Flux (Phase Options Fluid)

variable {K : Type} [Field K] [LinearOrder K]

/-- `co2GasPvt`, `h2GasPvt` (functions of temperature, pressure, `rv`, `rvw`) and `solventPvt` (which does not depend on the latter). -/
structure GasPvt (K : Type) where
  invB : K → K → K → K → K
  refDensity : K
  viscosity : K → K → K → K → K

/-- `brineCo2Pvt`, `brineH2Pvt`: functions of temperature, pressure and amount of dissolved gas. -/
structure BrinePvt (K : Type) where
  invB : K → K → K → K
  waterRefDensity : K
  gasRefDensity : K
  viscosity : K → K → K → K

/-- The PVT relations of the solvent and whether the deck has CO2SOL or H2SOL (opm/models/blackoil/blackoilsolventmodules.hh lines 119-139 and
lines 753-761). -/
structure SolventPvt (K : Type) where
  co2Sol : Bool
  h2Sol : Bool
  solvent : GasPvt K
  co2Gas : GasPvt K
  brineCo2 : BrinePvt K
  h2Gas : GasPvt K
  brineH2 : BrinePvt K

/-- The quantities of a cell: fluid state and densities, mobilities, and those of the solvent; `solventMobility` is the relative
permeability of the solvent until it is divided by the viscosity. -/
structure Cell (K : Type) where
  fs : Fluid K
  density : Phase → K
  mobilities : Mobilities K
  solventSaturation : K
  rsSolw : K
  solventInvB : K
  solventRefDensity : K
  solventViscosity : K
  solventDensity : K
  solventMobility : K

/-- The water with dissolved gas: `setDensity`, `setInvB` and `mobw *= muWat / muWatEff`,
opm/models/blackoil/blackoilsolventmodules.hh lines 988-999 (CO2) and lines 1006-1017 (H2).  `viscosity` is the viscosity of the fluid system
as a function of the fluid state, `fs.viscosity(waterPhaseIdx)` is evaluated after the change of the formation volume factor. -/
def waterUpdate (b : BrinePvt K) (viscosity : Fluid K → K) (T p : K) (c : Cell K) : Cell K :=
  let bw := b.invB T p c.rsSolw
  let denw := bw * b.waterRefDensity + c.rsSolw * bw * b.gasRefDensity
  let fs := { c.fs with invB := fun q => if q = .water then bw else c.fs.invB q }
  { c with
    density := fun q => if q = .water then denw else c.density q
    fs := fs
    mobilities := { c.mobilities with
      plain := fun q => if q = .water then c.mobilities.plain q * (viscosity fs / b.viscosity T p c.rsSolw) else c.mobilities.plain q } }

/-- The quantities of the solvent, opm/models/blackoil/blackoilsolventmodules.hh lines 979-986, 1001-1005 and 1018-1022; `rv` and `rvw` are
zero. -/
def gasUpdate (g : GasPvt K) (T p : K) (c : Cell K) : Cell K :=
  { c with solventInvB := g.invB T p 0 0, solventRefDensity := g.refDensity, solventViscosity := g.viscosity T p 0 0 }

/-- `solventPvtUpdate_`, opm/models/blackoil/blackoilsolventmodules.hh lines 970-1030: `T` and `p` are temperature and pressure of the gas
phase. -/
def pvtUpdate (s : SolventPvt K) (viscosity : Fluid K → K) (T p : K) (c : Cell K) : Cell K :=
  let c :=
    if s.co2Sol || s.h2Sol then
      if s.co2Sol then waterUpdate s.brineCo2 viscosity T p (gasUpdate s.co2Gas T p c)
      else waterUpdate s.brineH2 viscosity T p (gasUpdate s.h2Gas T p c)
    else gasUpdate s.solvent T p c
  let c := { c with solventDensity := c.solventInvB * c.solventRefDensity }
  { c with solventMobility := c.solventMobility / c.solventViscosity }

/-- What the storage term of the solvent (`solventStorage`) uses of a cell. -/
def Cell.iq (q0 : Iq K) (porosity : K) (c : Cell K) : Iq K :=
  { q0 with
    porosity := porosity
    satWater := c.fs.saturation .water
    invBWater := c.fs.invB .water
    densityWater := c.density .water
    solventSaturation := c.solventSaturation
    solventInvB := c.solventInvB
    solventDensity := c.solventDensity
    rsSolw := c.rsSolw }

/-- A cell before the solvent module: mobilities and densities as in `BlackOilIntensiveQuantities::update`,
opm/models/blackoil/blackoilintensivequantities.hh lines 371-443. -/
def cellBefore (o : Options) (ref : Phase → K) (viscosity : Fluid K → Phase → K) (kr : Mobilities K) (krs ss rsSolw : K) (fs : Fluid K) : Cell K where
  fs := fs
  density := density o ref fs
  mobilities := divide (viscosity fs) o.active kr
  solventSaturation := ss
  rsSolw := rsSolw
  solventInvB := 0
  solventRefDensity := 0
  solventViscosity := 0
  solventDensity := 0
  solventMobility := krs

end Verif.Extend.IQ
