import Verif.BlackOil.Indices
import Verif.Util.Chars
import Std.Data.String.ToNat

/-
The names of primary variables and of equations: `primaryVarName` and `eqName` of all models, the names of the fields which are written
for them by the module for primary variables (opm/models/io/vtkprimaryvarsmodule.hh) and by the writer of the convergence of the
Newton method (`addConvergenceVtkFields`, opm/models/discretization/common/fvbasediscretization.hh).

Names are lists of characters.  An assertion which fails is `none`.  (If assertions are disabled, the functions return the empty name
instead.)  Indices are those of models without an offset (`PVOffset = 0`), which are the only ones for which the functions are called.
-/

set_option autoImplicit false

namespace Verif.Names

/-- A name -/
abbrev Name := List Char

/-- The names of phases and components, `FluidSystem::phaseName` and `FluidSystem::componentName`, and their numbers. -/
structure Fluid where
  phases : ℕ
  comps : ℕ
  phaseName : ℕ → Name
  compName : ℕ → Name

/-- A number written to a stream of characters. -/
def digits (n : ℕ) : Name := (Nat.repr n).toList

/-- `EnergyModule::primaryVarName`, opm/models/common/energymodule.hh lines 83-84 (energy not conserved) and lines 256-261.  The index
`temperatureIdx` is `at`, lines 515-516. -/
def energyVar (energy : Bool) (pos i : ℕ) : Name := if energy = true ∧ i = pos then c!"temperature" else []

/-- `EnergyModule::eqName`, opm/models/common/energymodule.hh lines 91-92 and lines 268-273. -/
def energyEq (energy : Bool) (pos i : ℕ) : Name := if energy = true ∧ i = pos then c!"energy" else []

/-- The first branch of all functions below: if the module for energy has a name, it is taken. -/
def orElse (s : Name) (t : Option Name) : Option Name := if s ≠ [] then some s else t

/-! ### Immiscible model -/

/-- `numEq`, opm/models/immiscible/immiscibleindices.hh line 52 -/
def immNumEq (F : Fluid) (energy : Bool) : ℕ := F.phases + if energy then 1 else 0

/-- `ImmiscibleModel::primaryVarName`, opm/models/immiscible/immisciblemodel.hh lines 257-277; indices:
opm/models/immiscible/immiscibleindices.hh lines 43-65 -/
def immVar (F : Fluid) (energy : Bool) (i : ℕ) : Option Name :=
  orElse (energyVar energy F.phases i) <|
    if i = 0 then some (c!"pressure_" ++ F.phaseName 0)
    else if 1 ≤ i ∧ i < 1 + F.phases - 1 then some (c!"saturation_" ++ F.phaseName (i - 1))
    else none

/-- `ImmiscibleModel::eqName`, opm/models/immiscible/immisciblemodel.hh lines 282-296 (`numComponents` is the number of phases of
immiscible fluids) -/
def immEq (F : Fluid) (energy : Bool) (i : ℕ) : Option Name :=
  orElse (energyEq energy F.phases i) <|
    if i < F.comps then some (c!"conti_" ++ F.phaseName i) else none

/-! ### PVS model -/

/-- `numEq` of the PVS model and of the flash models, opm/models/pvs/pvsindices.hh line 55, opm/models/flash/flashindices.hh line 54,
opm/models/ptflash/flashindices.hh line 54 -/
def compNumEq (F : Fluid) (energy : Bool) : ℕ := F.comps + if energy then 1 else 0

/-- `PvsModel::primaryVarName`, opm/models/pvs/pvsmodel.hh lines 326-345; indices: opm/models/pvs/pvsindices.hh lines 46-68 -/
def pvsVar (F : Fluid) (energy : Bool) (i : ℕ) : Option Name :=
  orElse (energyVar energy F.comps i) <|
    if i = 0 then some (c!"pressure_" ++ F.phaseName 0)
    else if 1 ≤ i ∧ i < 1 + F.phases - 1 then some (c!"switch_" ++ digits (i - 1))
    else if 1 + F.phases - 1 ≤ i ∧ i < 1 + F.comps - 1 then some (c!"auxMoleFrac^" ++ F.compName i)
    else none

/-- `eqName` of the PVS model, opm/models/pvs/pvsmodel.hh lines 350-366, and of the flash models, opm/models/flash/flashmodel.hh lines
262-279, opm/models/ptflash/flashmodel.hh lines 266-282 -/
def compEq (F : Fluid) (energy : Bool) (i : ℕ) : Option Name :=
  orElse (energyEq energy F.comps i) <|
    if i < F.comps then some (c!"continuity^" ++ F.compName i) else none

/-! ### Flash models -/

/-- `FlashModel::primaryVarName`, opm/models/flash/flashmodel.hh lines 242-257; indices: opm/models/flash/flashindices.hh lines 45-66 -/
def flashVar (F : Fluid) (energy : Bool) (i : ℕ) : Option Name :=
  orElse (energyVar energy F.comps i) <|
    if i < F.comps then some (c!"c_tot," ++ F.compName i) else none

/-- `FlashModel::primaryVarName`, opm/models/ptflash/flashmodel.hh lines 246-261; indices: opm/models/ptflash/flashindices.hh lines
45-68 -/
def ptFlashVar (F : Fluid) (energy : Bool) (i : ℕ) : Option Name :=
  orElse (energyVar energy F.comps i) <|
    if 1 ≤ i ∧ i < 1 + F.comps - 1 then some (c!"z_," ++ F.compName (i - 1))
    else if i = 0 then some (c!"pressure_" ++ F.phaseName 0)
    else none

/-! ### NCP model -/

/-- `numEq`, opm/models/ncp/ncpindices.hh line 61 -/
def ncpNumEq (F : Fluid) (energy : Bool) : ℕ := F.comps + F.phases + if energy then 1 else 0

/-- `NcpModel::primaryVarName`, opm/models/ncp/ncpmodel.hh lines 304-321; indices: opm/models/ncp/ncpindices.hh lines 44-99:
fugacities, then saturations, then the pressure -/
def ncpVar (F : Fluid) (energy : Bool) (i : ℕ) : Option Name :=
  orElse (energyVar energy (F.comps + F.phases) i) <|
    if i = F.comps + F.phases - 1 then some (c!"pressure_" ++ F.phaseName 0)
    else if F.comps ≤ i ∧ i < F.comps + (F.phases - 1) then some (c!"saturation_" ++ F.phaseName (i - F.comps))
    else if i < F.comps then some (c!"fugacity^" ++ F.compName i)
    else none

/-- `NcpModel::eqName`, opm/models/ncp/ncpmodel.hh lines 326-341 -/
def ncpEq (F : Fluid) (energy : Bool) (i : ℕ) : Option Name :=
  orElse (energyEq energy (F.comps + F.phases) i) <|
    if i < F.comps then some (c!"continuity^" ++ F.compName i)
    else if F.comps ≤ i ∧ i < F.comps + F.phases then some (c!"ncp_" ++ F.phaseName (i - F.comps))
    else none

/-! ### Richards model -/

/-- `RichardsModel::primaryVarName`, opm/models/richards/richardsmodel.hh lines 306-315 -/
def richardsVar (F : Fluid) (liquid i : ℕ) : Option Name :=
  if i = 0 then some (c!"pressure_" ++ F.phaseName liquid) else none

/-- `RichardsModel::eqName`, opm/models/richards/richardsmodel.hh lines 320-329 -/
def richardsEq (F : Fluid) (liquid i : ℕ) : Option Name :=
  if i = 0 then some (c!"continuity_" ++ F.phaseName liquid) else none

/-! ### Models which do not define names -/

/-- `FvBaseDiscretization::primaryVarName`, opm/models/discretization/common/fvbasediscretization.hh lines 1545-1550 -/
def baseVar (i : ℕ) : Option Name := some (c!"primary variable_" ++ digits i)

/-- `FvBaseDiscretization::eqName`, opm/models/discretization/common/fvbasediscretization.hh lines 1557-1562 -/
def baseEq (i : ℕ) : Option Name := some (c!"equation_" ++ digits i)

/-! ### Black-oil model -/

open Verif.BlackOil in
/-- `BlackOilModel::primaryVarName`, opm/models/blackoil/blackoilmodel.hh lines 345-367, with the modules:
opm/models/blackoil/blackoilsolventmodules.hh lines 384-397, opm/models/blackoil/blackoilextbomodules.hh lines 273-286,
opm/models/blackoil/blackoilpolymermodules.hh lines 409-431, opm/models/blackoil/blackoilenergymodules.hh lines 93-107.  There is no
branch for foam, salt and MICP.  `mw` is `enablePolymerMolarWeight`. -/
def boVar (c : Config) (mw : Bool) (L : Layout) (i : ℤ) : Option Name :=
  if i = L.waterSwitchIdx then some c!"water_switching"
  else if i = L.pressureSwitchIdx then some c!"pressure_switching"
  else if i = L.compositionSwitchIdx then some c!"composition_switching"
  else if 0 < c.solvents ∧ i = L.solventSaturationIdx then some c!"saturation_solvent"
  else if 0 < c.extbos ∧ i = L.zFractionIdx then some c!"z_fraction"
  else if 0 < c.polymers ∧ (i = L.polymerConcentrationIdx ∨ mw = true ∧ i = L.polymerMoleWeightIdx) then
    some (if i = L.polymerConcentrationIdx then c!"polymer_waterconcentration" else c!"polymer_molecularweight")
  else if 0 < c.energy ∧ i = L.temperatureIdx then some c!"temperature"
  else none

open Verif.BlackOil in
/-- `BlackOilModel::eqName`, opm/models/blackoil/blackoilmodel.hh lines 372-390, with the modules:
opm/models/blackoil/blackoilsolventmodules.hh lines 407-420, opm/models/blackoil/blackoilextbomodules.hh lines 296-309,
opm/models/blackoil/blackoilpolymermodules.hh lines 441-461, opm/models/blackoil/blackoilenergymodules.hh lines 117-130.
`numComponents` is that of the fluid system, three (line 290). -/
def boEq (phaseName : ℕ → Name) (c : Config) (mw : Bool) (L : Layout) (i : ℤ) : Option Name :=
  if L.conti0EqIdx ≤ i ∧ i < L.conti0EqIdx + 3 then some (c!"conti_" ++ phaseName (i - L.conti0EqIdx).toNat)
  else if 0 < c.solvents ∧ i = L.contiSolventEqIdx then some c!"conti^solvent"
  else if 0 < c.extbos ∧ i = L.contiZfracEqIdx then some c!"conti^solvent"
  else if 0 < c.polymers ∧ (i = L.contiPolymerEqIdx ∨ mw = true ∧ i = L.contiPolymerMWEqIdx) then
    some (if i = L.contiPolymerEqIdx then c!"conti^polymer" else c!"conti^polymer_molecularweight")
  else if 0 < c.energy ∧ i = L.contiEnergyEqIdx then some c!"conti^energy"
  else none

/-! ### Fields -/

/-- The names of the fields with the primary variables, `commitPriVarsBuffer_`, opm/models/io/baseoutputmodule.hh lines 310-322, called
with the pattern `PV_%s` (opm/models/io/vtkprimaryvarsmodule.hh line 148).  `snprintf` keeps 511 characters. -/
def pvField (s : Name) : Name := (c!"PV_" ++ s).take 511

/-- The names of the fields of `addConvergenceVtkFields`, opm/models/discretization/common/fvbasediscretization.hh lines 1641-1666. -/
def convergenceFields (n : ℕ) (var eq : ℕ → Name) : List Name :=
  c!"relative error" :: c!"normalized relative error" ::
    (List.range n).flatMap (fun i =>
      [c!"priVar_" ++ var i, c!"delta_" ++ var i, c!"weight_" ++ var i, c!"defect_" ++ eq i])

end Verif.Names
