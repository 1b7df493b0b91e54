import Mathlib.Algebra.Order.Field.Basic
import Mathlib.Data.Rat.Defs

set_option autoImplicit false
set_option linter.unusedSectionVars false
/-
Model of the amounts of the components in the storage terms, the fluxes and the free-flow boundary rates of the black-oil
models (opm/models/blackoil/blackoillocalresidual.hh, opm/models/blackoil/blackoillocalresidualtpfa.hh, opm/models/blackoil/blackoilboundaryratevector.hh) and of
the rates which can be assigned to rate vectors.  Numbers are exact; only values, no derivatives.
-/
namespace Verif.Flux

variable {K : Type} [Field K] [LinearOrder K]

/-- The fluid phases; `FluidSystem::solventComponentIndex` maps each to the component of the same name, so that the type is
used for the components as well. -/
inductive Phase where
  | water | oil | gas
deriving DecidableEq

/-- All phases in the order of their indices. -/
def Phase.all : List Phase := [.water, .oil, .gas]

/-- What is fixed at compile time or by the fluid system: the active phases, the solubilities which are considered
(`FluidSystem::enableDissolvedGas()`, …), `BlackoilConserveSurfaceVolume` and whether the indices are the three-phase ones. -/
structure Options where
  active : Phase → Bool
  dissolvedGas : Bool
  dissolvedGasInWater : Bool
  vaporizedOil : Bool
  vaporizedWater : Bool
  conserveSurfaceVolume : Bool
  threePhaseIndices : Bool

/-- The part of a black-oil fluid state which matters here. -/
structure Fluid (K : Type) where
  saturation : Phase → K
  invB : Phase → K
  rs : K
  rsw : K
  rv : K
  rvw : K

/-- The equations of the components. -/
abbrev Amounts (K : Type) := Phase → K

/-- `v[conti0EqIdx + activeCompIdx] += x`.  Inactive components have no equation of their own in the two-phase indices: the
model keeps an entry for them which nobody looks at. -/
def Amounts.add (v : Amounts K) (c : Phase) (x : K) : Amounts K := fun d => if d = c then v d + x else v d

/-- `v[conti0EqIdx + activeCompIdx] = x`. -/
def Amounts.set (v : Amounts K) (c : Phase) (x : K) : Amounts K := fun d => if d = c then x else v d

/-- One iteration of the loop over the phases in `computeStorage`, opm/models/blackoil/blackoillocalresidual.hh:113-163 (identical in
opm/models/blackoil/blackoillocalresidualtpfa.hh:152-203). -/
def storagePhase (o : Options) (porosity : K) (fs : Fluid K) (st : Amounts K) (p : Phase) : Amounts K :=
  if o.active p = false then
    (if o.threePhaseIndices then st.set p 0 else st)
  else
    let surfaceVolume := fs.saturation p * fs.invB p * porosity
    let st := st.add p surfaceVolume
    let st := if p = .oil ∧ o.dissolvedGas then st.add .gas (fs.rs * surfaceVolume) else st
    let st := if p = .water ∧ o.dissolvedGasInWater then st.add .gas (fs.rsw * surfaceVolume) else st
    let st := if p = .gas ∧ o.vaporizedOil then st.add .oil (fs.rv * surfaceVolume) else st
    if p = .gas ∧ o.vaporizedWater then st.add .water (fs.rvw * surfaceVolume) else st

/-- `adaptMassConservationQuantities_`, opm/models/blackoil/blackoillocalresidual.hh:341-368 (identical in opm/models/blackoil/blackoillocalresidualtpfa.hh:825-851);
`refDensity` are the reference densities of the PVT region. -/
def adapt (o : Options) (refDensity : Phase → K) (v : Amounts K) : Amounts K :=
  if o.conserveSurfaceVolume then v
  else
    let v := if o.active .water then v.set .water (v .water * refDensity .water) else v
    let v := if o.active .gas then v.set .gas (v .gas * refDensity .gas) else v
    if o.active .oil then v.set .oil (v .oil * refDensity .oil) else v

/-- `computeStorage`, opm/models/blackoil/blackoillocalresidual.hh:102-188, without the additional modules. -/
def computeStorage (o : Options) (refDensity : Phase → K) (porosity : K) (fs : Fluid K) : Amounts K :=
  adapt o refDensity (Phase.all.foldl (storagePhase o porosity fs) fun _ => 0)

/-- `evalPhaseFluxes_`, opm/models/blackoil/blackoillocalresidual.hh:267-325 (opm/models/blackoil/blackoillocalresidualtpfa.hh:753-811): `volumeFlux` is the flux of
the phase, `up` the fluid upstream. -/
def evalPhaseFluxes (o : Options) (refDensity : Phase → K) (volumeFlux : K) (up : Fluid K) (flux : Amounts K) (p : Phase) : Amounts K :=
  let surfaceVolumeFlux := up.invB p * volumeFlux
  let conv (c : Phase) (x : K) : K := if o.conserveSurfaceVolume then x else x * refDensity c
  let flux := flux.add p (conv p surfaceVolumeFlux)
  match p with
  | .oil => if o.dissolvedGas then flux.add .gas (conv .gas (up.rs * surfaceVolumeFlux)) else flux
  | .water => if o.dissolvedGasInWater then flux.add .gas (conv .gas (up.rsw * surfaceVolumeFlux)) else flux
  | .gas =>
    let flux := if o.vaporizedOil then flux.add .oil (conv .oil (up.rv * surfaceVolumeFlux)) else flux
    if o.vaporizedWater then flux.add .water (conv .water (up.rvw * surfaceVolumeFlux)) else flux

/-- `computeFlux`, opm/models/blackoil/blackoillocalresidual.hh:193-215, without the additional modules: `up p` is the fluid in the upstream cell
of phase `p`, `upDensity p` are the reference densities of the PVT region of that cell. -/
def computeFlux (o : Options) (upDensity : Phase → Phase → K) (volumeFlux : Phase → K) (up : Phase → Fluid K) : Amounts K :=
  Phase.all.foldl (fun flux p =>
    if o.active p = false then flux else evalPhaseFluxes o (upDensity p) (volumeFlux p) (up p) flux p) fun _ => 0

/-- `setFreeFlow`, opm/models/blackoil/blackoilboundaryratevector.hh:93-202, without energy and additional modules (likewise
`computeBoundaryFluxFree`, opm/models/blackoil/blackoillocalresidualtpfa.hh:534-641): `pIn`, `pOut` are the pressures of the phases in the cell
and the prescribed ones, `refDensity` the reference densities of the PVT region of the cell. -/
def freeFlowRates (o : Options) (refDensity : Phase → K) (volumeFlux : Phase → K) (pIn pOut : Phase → K) (inside outside : Fluid K) :
    Amounts K :=
  adapt o refDensity (Phase.all.foldl (fun rate p =>
    if o.active p = false then rate
    else
      let tmp : Amounts K := fun _ => 0
      let tmp :=
        if pOut p < pIn p then evalPhaseFluxes o refDensity (volumeFlux p) inside tmp p
        else if pIn p < pOut p then evalPhaseFluxes o refDensity (volumeFlux p) outside tmp p
        else tmp
      fun c => rate c + tmp c) fun _ => 0)

/-! ### Rates -/

/-- The equations of the models other than the black-oil one: one for each component and the energy equation. -/
inductive Eqn (ι : Type) where
  | comp (i : ι)
  | energy
deriving DecidableEq

variable {ι : Type}

/-- `EnergyModule::setEnthalpyRate` for a fluid state, opm/models/common/energymodule.hh:326-335. -/
def enthalpyRate (density enthalpy volume : K) : K := volume * density * enthalpy

/-- `NcpRateVector::setMolarRate`, opm/models/ncp/ncpratevector.hh:103-104 (opm/models/flash/flashratevector.hh:94-95, opm/models/pvs/pvsratevector.hh:99-100). -/
def ncpSetMolarRate (value : Eqn ι → K) : Eqn ι → K := value

/-- `NcpRateVector::setMassRate`, opm/models/ncp/ncpratevector.hh:89-98 (opm/models/flash/flashratevector.hh:81-89). -/
def ncpSetMassRate (molarMass : ι → K) (value : Eqn ι → K) : Eqn ι → K :=
  ncpSetMolarRate fun e => match e with | .comp i => value (.comp i) / molarMass i | .energy => value .energy

/-- `NcpRateVector::setVolumetricRate`, opm/models/ncp/ncpratevector.hh:117-125. -/
def ncpSetVolumetricRate (molarity : ι → K) (density enthalpy volume : K) : Eqn ι → K
  | .comp i => molarity i * volume
  | .energy => enthalpyRate density enthalpy volume

/-- `PvsRateVector::setMassRate`, opm/models/pvs/pvsratevector.hh:87-94: the energy equation is not assigned. -/
def pvsSetMassRate (molarMass : ι → K) (value old : Eqn ι → K) : Eqn ι → K
  | .comp i => value (.comp i) / molarMass i
  | .energy => old .energy

/-- `PvsRateVector::setVolumetricRate`, opm/models/pvs/pvsratevector.hh:113-122, and `FlashRateVector::setVolumetricRate`,
opm/models/flash/flashratevector.hh:107-116.  Both ask for the density of a component in a phase: the model takes the density of the phase. -/
def pvsSetVolumetricRate (moleFraction : ι → K) (density enthalpy volume : K) : Eqn ι → K
  | .comp i => density * moleFraction i * volume
  | .energy => enthalpyRate density enthalpy volume

/-- `ImmiscibleRateVector::setMassRate`, opm/models/immiscible/immiscibleratevector.hh:99-100 (opm/models/richards/richardsratevector.hh:87-88). -/
def immSetMassRate (value : Eqn ι → K) : Eqn ι → K := value

/-- `ImmiscibleRateVector::setMolarRate`, opm/models/immiscible/immiscibleratevector.hh:111-117 (opm/models/richards/richardsratevector.hh:93-98): the energy equation is
not assigned. -/
def immSetMolarRate (molarMass : ι → K) (value old : Eqn ι → K) : Eqn ι → K
  | .comp i => value (.comp i) * molarMass i
  | .energy => old .energy

/-- `ImmiscibleRateVector::setVolumetricRate`, opm/models/immiscible/immiscibleratevector.hh:146-155 (opm/models/richards/richardsratevector.hh:111-119), with the
density of the phase. -/
def immSetVolumetricRate (massFraction : ι → K) (density enthalpy volume : K) : Eqn ι → K
  | .comp i => density * massFraction i * volume
  | .energy => enthalpyRate density enthalpy volume

/-- `BlackOilRateVector::setMassRate`, opm/models/blackoil/blackoilratevector.hh:92-118, without solvent, all phases active. -/
def boSetMassRate (surfaceVolume : Bool) (refDensity value : Phase → K) : Phase → K :=
  fun c => if surfaceVolume then value c / refDensity c else value c

/-- `BlackOilRateVector::setVolumetricRate`, opm/models/blackoil/blackoilratevector.hh:178-187, three phases. -/
def boSetVolumetricRate (density volume : K) (massFraction : Phase → K) : Phase → K :=
  fun c => density * massFraction c * volume

/-- An access to the rate vector: `none` if the index is outside of its `numEq` entries. -/
def accessEq (numEq : ℕ) (idx : Int) : Option ℕ := if 0 ≤ idx ∧ idx < numEq then some idx.toNat else none

/-- `contiSolventEqIdx`, opm/models/blackoil/blackoilindices.hh:191-192. -/
def contiSolventEqIdx (enableSolvent : Bool) (numPhases : ℕ) : Int := if enableSolvent then (numPhases : Int) else -1000

/-- `BlackOilRateVector::setMolarRate`, opm/models/blackoil/blackoilratevector.hh:122-172, up to the entry for the solvent, which is accessed
whether or not solvent is enabled (131-132): `none` is the access outside of the vector. -/
def boSetMolarRate (enableSolvent : Bool) (numEq : ℕ) (molarMass : ℕ → K) (solventMolarMass : K) (value : ℕ → K) : Option (ℕ → K) :=
  let v : ℕ → K := fun e => if e < 3 then value e * molarMass e else value e
  (accessEq numEq (contiSolventEqIdx enableSolvent 3)).map fun s => fun e => if e = s then v e * solventMolarMass else v e

end Verif.Flux
