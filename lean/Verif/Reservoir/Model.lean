import Verif.Hybrid.Model
import Verif.Flux.Content
import Mathlib.Algebra.TrivSqZeroExt.Basic

/-
The black-oil model on a grid with cells which are distributed over processes: what the local residual for the two-point flux linearizer
computes from the intensive quantities of the cells, with derivatives.

Models opm/models/blackoil/blackoillocalresidualtpfa.hh lines 116-133 (`ResidualNBInfo`), 152-231 (`computeStorage`), 238-260
(`computeFlux`), 325-503 (`calculateFluxes_`), 753-851 (`evalPhaseFluxes_`, `adaptMassConservationQuantities_`), the functions of the energy module which they call
(opm/models/blackoil/blackoilenergymodules.hh lines 139-166, 197-216, 531-583), and how the linearizer calls them
(opm/models/discretization/common/tpfalinearizer.hh lines 436-473, 741-775).

Simplifications: numbers are exact.  No diffusion, dispersion and convective mixing (for their values see `Verif.Flux.Agree`); no threshold
pressures and no mobilities which depend on the direction of the face; the other modules cannot be used with this residual.
`calculatePhasePressureDiff_` is not in this repository: it is taken to be what opm/models/common/transfluxmodule.hh lines 252-303 does.
Intensive quantities, sources and boundary conditions are arbitrary functions of the cell and its primary variables.
-/

set_option autoImplicit false

namespace Verif.Reservoir

open Verif.Flux (Phase Options) 
open Verif.ParSolve.Block

/-- `Evaluation`: a value, and its derivatives with respect to the primary variables of the cell in focus -/
abbrev Ev (E : ℕ) (K : Type) := TrivSqZeroExt K (Fin E → K)

variable {G K V X : Type} {E : ℕ}

/-- The intensive quantities of a cell which the residual looks at (opm/models/blackoil/blackoilintensivequantities.hh) -/
structure Iq (R : Type) where
  pressure : Phase → R
  density : Phase → R
  mobility : Phase → R
  saturation : Phase → R
  invB : Phase → R
  internalEnergy : Phase → R
  enthalpy : Phase → R
  rs : R
  rsw : R
  rv : R
  rvw : R
  porosity : R
  /-- `rockCompTransMultiplier()` -/
  transMult : R
  temperature : R
  /-- `totalThermalConductivity()` -/
  conductivity : R
  rockFraction : R
  /-- `rockInternalEnergy()` -/
  rockEnergy : R

/-- `ResidualNBInfo` (opm/models/blackoil/blackoillocalresidualtpfa.hh lines 120-133); the volumes are those of the cells -/
structure Nb (K : Type) where
  trans : K
  faceArea : K
  dZg : K
  inAlpha : K
  outAlpha : K

variable [Field K] 

/-- `Toolbox::value`: no derivatives -/
def decay (x : Ev E K) : Ev E K := TrivSqZeroExt.inl x.fst

/-- A quantity without derivatives -/
def const (x : K) : Ev E K := TrivSqZeroExt.inl x

/-- `pressureDifference` (opm/models/common/transfluxmodule.hh lines 252-263) -/
def pressureDifference (k : Nb K) (a b : Iq (Ev E K)) (p : Phase) : Ev E K :=
  decay (b.pressure p) + (a.density p + decay (b.density p)) * const (1 / 2) * const k.dZg - a.pressure p

/-- The surface volume of a phase is split into the components (`evalPhaseFluxes_`, opm/models/blackoil/blackoillocalresidualtpfa.hh lines
753-811; it adds to the entries of `flux`) -/
def evalPhaseFluxes (o : Options) (ref : Phase → K) (surfaceVolumeFlux : Ev E K) (rs rsw rv rvw : Ev E K) (flux : Phase → Ev E K) (p : Phase) :
    Phase → Ev E K :=
  let add (v : Phase → Ev E K) (c : Phase) (x : Ev E K) : Phase → Ev E K := fun d => if d = c then v d + x else v d
  let conv (c : Phase) (x : Ev E K) : Ev E K := if o.conserveSurfaceVolume then x else x * const (ref c)
  let flux := add flux p (conv p surfaceVolumeFlux)
  match p with
  | .oil => if o.dissolvedGas then add flux .gas (conv .gas (rs * surfaceVolumeFlux)) else flux
  | .water => if o.dissolvedGasInWater then add flux .gas (conv .gas (rsw * surfaceVolumeFlux)) else flux
  | .gas =>
    let flux := if o.vaporizedOil then add flux .oil (conv .oil (rv * surfaceVolumeFlux)) else flux
    if o.vaporizedWater then add flux .water (conv .water (rvw * surfaceVolumeFlux)) else flux

/-- The amounts of the components per volume (`computeStorage`, opm/models/blackoil/blackoillocalresidualtpfa.hh lines 160-206): the same
sums as for the fluxes, converted to mass at the end (`adaptMassConservationQuantities_`, lines 825-851) -/
def storedComponents (o : Options) (ref : Phase → K) (a : Iq (Ev E K)) : Phase → Ev E K :=
  let surface := Phase.all.foldl (fun st p =>
    if o.active p = false then st
    else evalPhaseFluxes { o with conserveSurfaceVolume := true } ref (a.saturation p * a.invB p * a.porosity) a.rs a.rsw a.rv a.rvw st p)
    fun _ => 0
  fun c => if o.conserveSurfaceVolume = false ∧ o.active c = true then surface c * const (ref c) else surface c

/-- The energy per volume (`BlackOilEnergyModule::addStorage`, opm/models/blackoil/blackoilenergymodules.hh lines 139-166) -/
def storedEnergy (o : Options) (scale : K) (a : Iq (Ev E K)) : Ev E K :=
  (Phase.all.foldl (fun st p =>
      if o.active p = false then st else st + a.porosity * a.saturation p * a.internalEnergy p * a.density p) 0
    + a.rockFraction * a.rockEnergy) * const scale

variable [LinearOrder K]

/-- Whether the exterior cell is the upstream one for the phase: `before` tells whether the index of the interior cell is less than the one of
the exterior cell (opm/models/common/transfluxmodule.hh lines 264-303) -/
def exteriorUpstream (k : Nb K) (volumeIn volumeEx : K) (before : Bool) (a b : Iq (Ev E K)) (p : Phase) : Bool :=
  let d := (pressureDifference k a b p).fst
  if 0 < d then true
  else if d < 0 then false
  else if volumeEx < volumeIn then false
  else if volumeIn < volumeEx then true
  else !before

/-- The quantity of the upstream cell: that of the exterior cell without derivatives (opm/models/blackoil/blackoillocalresidualtpfa.hh lines 372-410) -/
def upstream (exterior : Bool) (a b : Ev E K) : Ev E K := if exterior then decay b else a

/-- `darcyFlux` (opm/models/blackoil/blackoillocalresidualtpfa.hh lines 374-382) -/
def darcyFlux (k : Nb K) (exterior : Bool) (a b : Iq (Ev E K)) (p : Phase) : Ev E K :=
  pressureDifference k a b p * upstream exterior (a.mobility p) (b.mobility p) * ((a.transMult + decay b.transMult) * const (1 / 2))
    * const (-k.trans / k.faceArea)

/-- The fluxes of the components (opm/models/blackoil/blackoillocalresidualtpfa.hh lines 343-410) -/
def componentFlux (o : Options) (k : Nb K) (volumeIn volumeEx : K) (before : Bool) (refIn refEx : Phase → K) (a b : Iq (Ev E K)) :
    Phase → Ev E K :=
  Phase.all.foldl (fun flux p =>
    if o.active p = false then flux
    else
      let ex := exteriorUpstream k volumeIn volumeEx before a b p
      evalPhaseFluxes o (if ex then refEx else refIn) (upstream ex (a.invB p) (b.invB p) * darcyFlux k ex a b p)
        (upstream ex a.rs b.rs) (upstream ex a.rsw b.rsw) (upstream ex a.rv b.rv) (upstream ex a.rvw b.rvw) flux p) fun _ => 0

/-- Heat conduction (`updateEnergy`, opm/models/blackoil/blackoilenergymodules.hh lines 531-583) -/
def heatFlux (k : Nb K) (a b : Iq (Ev E K)) : Ev E K :=
  let inH := a.conductivity * const k.inAlpha
  let exH := decay b.conductivity * const k.outAlpha
  let h := if 0 < inH.fst ∧ 0 < exH.fst then (inH⁻¹ + exH⁻¹)⁻¹ else 0
  (decay b.temperature - a.temperature) * (-h * const (1 / k.faceArea))

/-- The flux of energy: the enthalpy which the phases carry, and conduction (`addPhaseEnthalpyFluxes_` and `addHeatFlux`,
opm/models/blackoil/blackoilenergymodules.hh lines 197-216, called in opm/models/blackoil/blackoillocalresidualtpfa.hh lines 394-460) -/
def energyFlux (o : Options) (scale : K) (k : Nb K) (volumeIn volumeEx : K) (before : Bool) (a b : Iq (Ev E K)) : Ev E K :=
  (Phase.all.foldl (fun flux p =>
      if o.active p = false then flux
      else
        let ex := exteriorUpstream k volumeIn volumeEx before a b p
        flux + upstream ex (a.enthalpy p) (b.enthalpy p) * upstream ex (a.density p) (b.density p) * darcyFlux k ex a b p) 0
    + heatFlux k a b) * const scale

/-- A reservoir: its grid, its fluids and rock, and what the problem says about it -/
structure Model (G : Type) (E : ℕ) (K V X : Type) where
  options : Options
  /-- `BlackOilEnergyScalingFactor` -/
  scale : K
  /-- the equations: `some c` is the one for the component `c`, `none` the one for energy -/
  equation : Fin E → Option Phase
  /-- the cells behind the faces of a cell with the data of the connections (opm/models/discretization/common/tpfalinearizer.hh lines 436-473) -/
  neighbours : G → List (G × Nb K)
  /-- `dofTotalVolume` -/
  volume : G → K
  /-- the reference densities of the PVT region of the cell -/
  ref : G → Phase → K
  /-- the intensive quantities of a cell for its primary variables, with derivatives -/
  quantities : X → G → V → Iq (Ev E K)
  source : X → K → G → V → Blk E K × Mat E K
  boundary : X → K → G → V → List (Bool × K × (Blk E K × Mat E K))
  cutFace : X → K → G → Nb K → V → Bool × K × (Blk E K × Mat E K)
  works : X → K → G → V → Bool
  weight : X → K → G → Fin E → K
  update : X → K → G → V → Blk E K → V

/-- Values and derivatives, as the linearizer takes them apart (`setResAndJacobi`, opm/models/discretization/common/tpfalinearizer.hh lines 626-634) -/
def parts (f : Fin E → Ev E K) : Blk E K × Mat E K := (fun e => (f e).fst, fun e j => (f e).snd j)

/-- What the local residual computes, if `index` is the index of a cell on the process: `computeFlux` and `computeStorage`
(opm/models/blackoil/blackoillocalresidualtpfa.hh lines 152-260) -/
def Model.flow (r : Model G E K V X) (index : G → ℕ) : Hybrid.Flow G (Nb K) E K V X where
  neighbours := r.neighbours
  area k := k.faceArea
  volume := r.volume
  storage own c v := parts fun e => match r.equation e with
    | some q => storedComponents r.options (r.ref c) (r.quantities own c v) q
    | none => storedEnergy r.options r.scale (r.quantities own c v)
  flux own _ c c' k v v' := parts fun e => match r.equation e with
    | some q => componentFlux r.options k (r.volume c) (r.volume c') (index c < index c') (r.ref c) (r.ref c') (r.quantities own c v)
        (r.quantities own c' v') q
    | none => energyFlux r.options r.scale k (r.volume c) (r.volume c') (index c < index c') (r.quantities own c v) (r.quantities own c' v')
  source := r.source
  boundary := r.boundary
  cutFace := r.cutFace
  works := r.works
  weight := r.weight
  update := r.update

end Verif.Reservoir
