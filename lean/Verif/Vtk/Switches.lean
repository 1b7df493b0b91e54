import Mathlib.Algebra.Order.Field.Basic
set_option autoImplicit false

/-!
# The output modules of the black-oil models

`VtkBlackOilModule`, `VtkBlackOilEnergyModule`, `VtkBlackOilPolymerModule`,
`VtkBlackOilSolventModule` and `VtkBlackOilMICPModule`: which fields are put into the visualisation
files and what they contain.

Simplifications: one write of the files (allocating the buffers, one visit of every element,
handing over the buffers) is modelled; what the fluid system calculates from the state of a cell is
data; the buffers of a phase are one buffer per phase.
-/

namespace Verif.Vtk.Switches

/-- The phases of the black-oil fluid system.  Cites `opm/models/io/vtkblackoilmodule.hh lines
87-92`. -/
inductive Phase
  | water | oil | gas
  deriving DecidableEq, Repr

/-- The parameters which select fields.  Cites `opm/models/io/vtkblackoilmodule.hh lines 47-57`,
`opm/models/io/vtkblackoilenergymodule.hh lines 47-50`,
`opm/models/io/vtkblackoilpolymermodule.hh lines 54-59`,
`opm/models/io/vtkblackoilsolventmodule.hh lines 47-51` and
`opm/models/io/vtkblackoilmicpmodule.hh lines 47-51`. -/
inductive Param
  | gasDissolutionFactor | oilVaporizationFactor | oilFormationVolumeFactor
  | gasFormationVolumeFactor | waterFormationVolumeFactor | oilSaturationPressure
  | gasSaturationPressure | saturationRatios | saturatedOilGasDissolutionFactor
  | saturatedGasOilVaporizationFactor | primaryVarsMeaning
  | rockInternalEnergy | totalThermalConductivity | fluidInternalEnergies | fluidEnthalpies
  | polymerConcentration | polymerDeadPoreVolume | polymerViscosityCorrection
  | waterViscosityCorrection | polymerRockDensity | polymerAdsorption
  | solventSaturation | solventRsw | solventDensity | solventViscosity | solventMobility
  | microbialConcentration | oxygenConcentration | ureaConcentration | biofilmConcentration
  | calciteConcentration
  deriving DecidableEq, Repr

/-- The buffers of the modules.  Cites `opm/models/io/vtkblackoilmodule.hh lines 372-389`,
`opm/models/io/vtkblackoilenergymodule.hh lines 219-222`,
`opm/models/io/vtkblackoilpolymermodule.hh lines 259-264`,
`opm/models/io/vtkblackoilsolventmodule.hh lines 203-241` and
`opm/models/io/vtkblackoilmicpmodule.hh lines 202-240`. -/
inductive Buffer
  | gasDissolutionFactor | oilVaporizationFactor
  | formationVolumeFactor (p : Phase)
  | oilSaturationPressure | gasSaturationPressure
  | saturatedOilGasDissolutionFactor | saturatedGasOilVaporizationFactor
  | oilSaturationRatio | gasSaturationRatio
  | meaningWater | meaningGas | meaningPressure
  | rockInternalEnergy | totalThermalConductivity
  | fluidInternalEnergy (p : Phase) | fluidEnthalpy (p : Phase)
  | polymerConcentration | polymerDeadPoreVolume | polymerRockDensity | polymerAdsorption
  | polymerViscosityCorrection | waterViscosityCorrection
  | solventSaturation | solventRsw | solventDensity | solventViscosity | solventMobility
  | microbialConcentration | oxygenConcentration | ureaConcentration | biofilmConcentration
  | calciteConcentration
  deriving DecidableEq, Repr

/-- The phases in the order of their indices. -/
def phases : List Phase := [.water, .oil, .gas]

open Buffer in
/-- All buffers in the order in which they are handed to the writer.  Cites
`opm/models/io/vtkblackoilmodule.hh lines 275-302`,
`opm/models/io/vtkblackoilenergymodule.hh lines 181-191`,
`opm/models/io/vtkblackoilpolymermodule.hh lines 203-219`,
`opm/models/io/vtkblackoilsolventmodule.hh lines 187-200` and
`opm/models/io/vtkblackoilmicpmodule.hh lines 185-198`. -/
def buffers : List Buffer :=
  [gasDissolutionFactor, oilVaporizationFactor, formationVolumeFactor .oil,
    formationVolumeFactor .gas, formationVolumeFactor .water, oilSaturationPressure,
    gasSaturationPressure, saturatedOilGasDissolutionFactor, saturatedGasOilVaporizationFactor,
    oilSaturationRatio, gasSaturationRatio, meaningWater, meaningGas, meaningPressure,
    rockInternalEnergy, totalThermalConductivity] ++
  phases.map fluidInternalEnergy ++ phases.map fluidEnthalpy ++
  [polymerConcentration, polymerDeadPoreVolume, polymerRockDensity, polymerAdsorption,
    polymerViscosityCorrection, waterViscosityCorrection,
    solventSaturation, solventRsw, solventDensity, solventViscosity, solventMobility,
    microbialConcentration, oxygenConcentration, ureaConcentration, biofilmConcentration,
    calciteConcentration]

/-- The parameter which the switch of a buffer reads.  Cites
`opm/models/io/vtkblackoilmodule.hh lines 306-370`,
`opm/models/io/vtkblackoilenergymodule.hh lines 195-217`,
`opm/models/io/vtkblackoilpolymermodule.hh lines 223-257`,
`opm/models/io/vtkblackoilsolventmodule.hh lines 203-240` and
`opm/models/io/vtkblackoilmicpmodule.hh lines 202-240`.  The switch of the correction of the water
viscosity reads the parameter of the correction of the polymer viscosity. -/
def switch : Buffer → Param
  | .gasDissolutionFactor => .gasDissolutionFactor
  | .oilVaporizationFactor => .oilVaporizationFactor
  | .formationVolumeFactor .oil => .oilFormationVolumeFactor
  | .formationVolumeFactor .gas => .gasFormationVolumeFactor
  | .formationVolumeFactor .water => .waterFormationVolumeFactor
  | .oilSaturationPressure => .oilSaturationPressure
  | .gasSaturationPressure => .gasSaturationPressure
  | .saturatedOilGasDissolutionFactor => .saturatedOilGasDissolutionFactor
  | .saturatedGasOilVaporizationFactor => .saturatedGasOilVaporizationFactor
  | .oilSaturationRatio => .saturationRatios
  | .gasSaturationRatio => .saturationRatios
  | .meaningWater => .primaryVarsMeaning
  | .meaningGas => .primaryVarsMeaning
  | .meaningPressure => .primaryVarsMeaning
  | .rockInternalEnergy => .rockInternalEnergy
  | .totalThermalConductivity => .totalThermalConductivity
  | .fluidInternalEnergy _ => .fluidInternalEnergies
  | .fluidEnthalpy _ => .fluidEnthalpies
  | .polymerConcentration => .polymerConcentration
  | .polymerDeadPoreVolume => .polymerDeadPoreVolume
  | .polymerRockDensity => .polymerRockDensity
  | .polymerAdsorption => .polymerAdsorption
  | .polymerViscosityCorrection => .polymerViscosityCorrection
  | .waterViscosityCorrection => .polymerViscosityCorrection
  | .solventSaturation => .solventSaturation
  | .solventRsw => .solventRsw
  | .solventDensity => .solventDensity
  | .solventViscosity => .solventViscosity
  | .solventMobility => .solventMobility
  | .microbialConcentration => .microbialConcentration
  | .oxygenConcentration => .oxygenConcentration
  | .ureaConcentration => .ureaConcentration
  | .biofilmConcentration => .biofilmConcentration
  | .calciteConcentration => .calciteConcentration

/-- The name of a phase in the black-oil fluid system (which is not part of the repository). -/
def phaseName : Phase → String
  | .water => "water"
  | .oil => "oil"
  | .gas => "gas"

/-- The name under which a buffer is handed to the writer.  Cites
`opm/models/io/vtkblackoilmodule.hh lines 275-302`,
`opm/models/io/vtkblackoilenergymodule.hh lines 181-191`,
`opm/models/io/vtkblackoilpolymermodule.hh lines 203-219`,
`opm/models/io/vtkblackoilsolventmodule.hh lines 187-200` and
`opm/models/io/vtkblackoilmicpmodule.hh lines 185-198`. -/
def name : Buffer → String
  | .gasDissolutionFactor => "R_s"
  | .oilVaporizationFactor => "R_v"
  | .formationVolumeFactor .oil => "B_o"
  | .formationVolumeFactor .gas => "B_g"
  | .formationVolumeFactor .water => "B_w"
  | .oilSaturationPressure => "p_o,sat"
  | .gasSaturationPressure => "p_g,sat"
  | .saturatedOilGasDissolutionFactor => "R_s,sat"
  | .saturatedGasOilVaporizationFactor => "R_v,sat"
  | .oilSaturationRatio => "saturation ratio_oil"
  | .gasSaturationRatio => "saturation ratio_gas"
  | .meaningWater => "primary vars meaning water"
  | .meaningGas => "primary vars meaning gas"
  | .meaningPressure => "primary vars meaning pressure"
  | .rockInternalEnergy => "volumetric internal energy rock"
  | .totalThermalConductivity => "total thermal conductivity"
  | .fluidInternalEnergy p => "internal energy_" ++ phaseName p
  | .fluidEnthalpy p => "enthalpy_" ++ phaseName p
  | .polymerConcentration => "polymer concentration"
  | .polymerDeadPoreVolume => "dead pore volume fraction"
  | .polymerRockDensity => "polymer rock density"
  | .polymerAdsorption => "polymer adsorption"
  | .polymerViscosityCorrection => "polymer viscosity correction"
  | .waterViscosityCorrection => "water viscosity correction"
  | .solventSaturation => "saturation_solvent"
  | .solventRsw => "dissolved_solvent"
  | .solventDensity => "density_solvent"
  | .solventViscosity => "viscosity_solvent"
  | .solventMobility => "mobility_solvent"
  | .microbialConcentration => "microbial concentration"
  | .oxygenConcentration => "oxygen concentration"
  | .ureaConcentration => "urea concentration"
  | .biofilmConcentration => "biofilm fraction"
  | .calciteConcentration => "calcite fraction"

/-- The extensions the model is compiled with and the active phases. -/
structure Setup where
  active : Phase → Bool
  energy : Bool
  polymer : Bool
  solvent : Bool
  micp : Bool
  deriving Inhabited

/-- Is the module of a buffer compiled in?  Cites
`opm/models/io/vtkblackoilenergymodule.hh lines 117-118`,
`opm/models/io/vtkblackoilpolymermodule.hh lines 131-132`,
`opm/models/io/vtkblackoilsolventmodule.hh lines 120-121` and
`opm/models/io/vtkblackoilmicpmodule.hh lines 118-119`. -/
def compiled (s : Setup) : Buffer → Bool
  | .rockInternalEnergy | .totalThermalConductivity | .fluidInternalEnergy _
  | .fluidEnthalpy _ => s.energy
  | .polymerConcentration | .polymerDeadPoreVolume | .polymerRockDensity | .polymerAdsorption
  | .polymerViscosityCorrection | .waterViscosityCorrection => s.polymer
  | .solventSaturation | .solventRsw | .solventDensity | .solventViscosity
  | .solventMobility => s.solvent
  | .microbialConcentration | .oxygenConcentration | .ureaConcentration | .biofilmConcentration
  | .calciteConcentration => s.micp
  | _ => true

variable {K : Type}

/-- What the state of a cell and the fluid system provide.  The saturated dissolution factors
depend on the largest saturation of oil seen by the cell, the saturated mole fractions on these
factors. -/
structure Cell (K : Type) where
  oilSaturation : K
  maxOilSaturation : K
  moleFractionOilGas : K
  moleFractionGasOil : K
  Rs : K
  Rv : K
  saturatedRs : K → K
  saturatedRv : K → K
  RsToMoleFraction : K → K
  RvToMoleFraction : K → K
  inverseFormationVolumeFactor : Phase → K
  oilSaturationPressure : K
  gasSaturationPressure : K
  meaningWater : K
  meaningGas : K
  meaningPressure : K
  rockInternalEnergy : K
  totalThermalConductivity : K
  internalEnergy : Phase → K
  enthalpy : Phase → K
  polymerConcentration : K
  polymerDeadPoreVolume : K
  polymerRockDensity : K
  polymerAdsorption : K
  polymerViscosityCorrection : K
  waterViscosityCorrection : K
  solventSaturation : K
  rsSolw : K
  solventDensity : K
  solventViscosity : K
  solventMobility : K
  microbialConcentration : K
  oxygenConcentration : K
  ureaConcentration : K
  biofilmConcentration : K
  calciteConcentration : K

variable [Field K] [LinearOrder K]

/-- The largest saturation of oil.  Cites `opm/models/io/vtkblackoilmodule.hh lines 191-194`. -/
def soMax (s : Setup) (c : Cell K) : K :=
  if s.active .oil then max c.oilSaturation c.maxOilSaturation else 0

/-- A saturation ratio.  Cites `opm/models/io/vtkblackoilmodule.hh lines 236-245`. -/
def ratio (x saturated : K) : K := if saturated ≤ 0 then 1 else x / saturated

/-- The value which is put into a buffer for a cell, if any.  Cites
`opm/models/io/vtkblackoilmodule.hh lines 196-265`,
`opm/models/io/vtkblackoilenergymodule.hh lines 147-163`,
`opm/models/io/vtkblackoilpolymermodule.hh lines 165-187`,
`opm/models/io/vtkblackoilsolventmodule.hh lines 153-171` and
`opm/models/io/vtkblackoilmicpmodule.hh lines 150-168`. -/
def put (s : Setup) (c : Cell K) : Buffer → Option K
  | .gasDissolutionFactor => if s.active .gas && s.active .oil then some c.Rs else none
  | .oilVaporizationFactor => if s.active .gas && s.active .oil then some c.Rv else none
  | .oilSaturationPressure =>
    if s.active .gas && s.active .oil then some c.oilSaturationPressure else none
  | .gasSaturationPressure =>
    if s.active .gas && s.active .oil then some c.gasSaturationPressure else none
  | .saturatedOilGasDissolutionFactor =>
    if s.active .gas && s.active .oil then some (c.saturatedRs (soMax s c)) else none
  | .saturatedGasOilVaporizationFactor =>
    if s.active .gas && s.active .oil then some (c.saturatedRv (soMax s c)) else none
  | .oilSaturationRatio =>
    if s.active .gas && s.active .oil then
      some (ratio c.moleFractionOilGas (c.RsToMoleFraction (c.saturatedRs (soMax s c))))
    else none
  | .gasSaturationRatio =>
    if s.active .gas && s.active .oil then
      some (ratio c.moleFractionGasOil (c.RvToMoleFraction (c.saturatedRv (soMax s c))))
    else none
  | .formationVolumeFactor p => some (1 / c.inverseFormationVolumeFactor p)
  | .meaningWater => some c.meaningWater
  | .meaningGas => some c.meaningGas
  | .meaningPressure => some c.meaningPressure
  | .rockInternalEnergy => some c.rockInternalEnergy
  | .totalThermalConductivity => some c.totalThermalConductivity
  | .fluidInternalEnergy p => if s.active p then some (c.internalEnergy p) else none
  | .fluidEnthalpy p => if s.active p then some (c.enthalpy p) else none
  | .polymerConcentration => some c.polymerConcentration
  | .polymerDeadPoreVolume => some c.polymerDeadPoreVolume
  | .polymerRockDensity => some c.polymerRockDensity
  | .polymerAdsorption => some c.polymerAdsorption
  | .polymerViscosityCorrection => some c.polymerViscosityCorrection
  | .waterViscosityCorrection => some c.waterViscosityCorrection
  | .solventSaturation => some c.solventSaturation
  | .solventRsw => some c.rsSolw
  | .solventDensity => some c.solventDensity
  | .solventViscosity => some c.solventViscosity
  | .solventMobility => some c.solventMobility
  | .microbialConcentration => some c.microbialConcentration
  | .oxygenConcentration => some c.oxygenConcentration
  | .ureaConcentration => some (10 * c.ureaConcentration)
  | .biofilmConcentration => some c.biofilmConcentration
  | .calciteConcentration => some c.calciteConcentration

/-- The buffers; `none` is a buffer which was never given a size. -/
abbrev Store (K : Type) := Buffer → Option (List K)

/-- `allocBuffers`.  Cites `opm/models/io/vtkblackoilmodule.hh lines 142-171`,
`opm/models/io/vtkblackoilenergymodule.hh lines 111-128`,
`opm/models/io/vtkblackoilpolymermodule.hh lines 125-146`,
`opm/models/io/vtkblackoilsolventmodule.hh lines 114-133`,
`opm/models/io/vtkblackoilmicpmodule.hh lines 112-131` and
`opm/models/io/baseoutputmodule.hh lines 155-160`. -/
def alloc (s : Setup) (on : Param → Bool) (n : ℕ) (store : Store K) : Store K := fun b =>
  if compiled s b && on (switch b) then some (List.replicate n 0) else store b

/-- `processElement` for one degree of freedom of the element: writing to a buffer without size
is undefined (`none`).  Cites `opm/models/io/vtkblackoilmodule.hh lines 177-268`,
`opm/models/io/vtkblackoilenergymodule.hh lines 134-166`,
`opm/models/io/vtkblackoilpolymermodule.hh lines 152-189`,
`opm/models/io/vtkblackoilsolventmodule.hh lines 139-173` and
`opm/models/io/vtkblackoilmicpmodule.hh lines 137-171`. -/
def processDof (s : Setup) (on : Param → Bool) (state : ℕ → Cell K) (i : ℕ) (store : Store K) :
    Option (Store K) :=
  if ∃ b ∈ buffers, (compiled s b && on (switch b)) = true ∧ (put s (state i) b).isSome = true ∧
      ∀ l, store b = some l → l.length ≤ i then none
  else some fun b =>
    if compiled s b && on (switch b) then
      match put s (state i) b with
      | some v => (store b).map (·.set i v)
      | none => store b
    else store b

/-- The visits of all elements. -/
def process (s : Setup) (on : Param → Bool) (state : ℕ → Cell K) :
    List ℕ → Store K → Option (Store K)
  | [], store => some store
  | i :: rest, store =>
    (processDof s on state i store).bind (process s on state rest)

/-- `commitBuffers`: the fields which are handed to the writer, with their names.  Cites
`opm/models/io/vtkblackoilmodule.hh lines 269-303`,
`opm/models/io/vtkblackoilenergymodule.hh lines 172-192`,
`opm/models/io/vtkblackoilpolymermodule.hh lines 194-220`,
`opm/models/io/vtkblackoilsolventmodule.hh lines 178-201` and
`opm/models/io/vtkblackoilmicpmodule.hh lines 176-200`. -/
def commit (s : Setup) (on : Param → Bool) (store : Store K) : List (String × List K) :=
  (buffers.filter fun b => compiled s b && on (switch b)).map fun b =>
    (name b, (store b).getD [])

/-- One write of the visualisation files with `n` degrees of freedom which are visited in the given
order, after buffers left over from earlier writes. -/
def write (s : Setup) (on : Param → Bool) (n : ℕ) (state : ℕ → Cell K) (order : List ℕ)
    (old : Store K) : Option (List (String × List K)) :=
  (process s on state order (alloc s on n old)).map (commit s on)

end Verif.Vtk.Switches
