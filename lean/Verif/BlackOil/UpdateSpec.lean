import Verif.BlackOil.PrimaryVars
import Verif.BlackOil.IndicesProps

/-
What the statements about updates of black-oil primary variables (C52) talk about.
-/

set_option autoImplicit false
set_option linter.unusedSectionVars false

namespace Verif.BlackOil

variable {K : Type} [Field K] [LinearOrder K]

/-- The meanings of the variables fit the phases which are active, as `assignNaive` chooses them and `adaptPrimaryVariables` keeps
them, and the solvent module is not used. -/
structure Fits (L : Layout) (f : Fluid K) (v : PriVars K) : Prop where
  nodup : L.primaryVars.Nodup
  /-- there is a variable for water only if there is water and something else -/
  water : v.water ≠ .Disabled → 0 ≤ L.waterSwitchIdx ∧ L.waterSwitchIdx < L.numEq ∧ f.waterActive ∧ (f.oilActive ∨ f.gasActive)
  noWater : v.water = .Disabled → f.waterActive → ¬f.oilActive ∧ ¬f.gasActive
  /-- there is a variable for gas only if there are gas and oil -/
  gas : v.gas ≠ .Disabled → 0 ≤ L.compositionSwitchIdx ∧ L.compositionSwitchIdx < L.numEq ∧ f.gasActive ∧ f.oilActive
  noGas : v.gas = .Disabled → L.compositionSwitchIdx < 0 ∧ ¬(f.gasActive ∧ f.oilActive)
  /-- gas dissolves in water only in models without oil -/
  gasInWater : f.dissolvedGasInWater → f.oilActive = false ∧ f.gasActive
  rsw : v.water = .Rsw → f.dissolvedGasInWater
  some : f.oilActive ∨ f.gasActive ∨ f.waterActive
  pressure : 0 ≤ L.pressureSwitchIdx ∧ L.pressureSwitchIdx < L.numEq
  solvent : L.solventSaturationIdx < 0 ∧ v.solvent = .Disabled

/-- Each saturation differs by at most `d`. -/
def SatClose (d : K) (s t : Saturations K) : Prop :=
  |t.water - s.water| ≤ d ∧ |t.oil - s.oil| ≤ d ∧ |t.gas - s.gas| ≤ d ∧ |t.solvent - s.solvent| ≤ d

/-- The saturations are not negative. -/
def SatNonneg (s : Saturations K) : Prop := 0 ≤ s.water ∧ 0 ≤ s.oil ∧ 0 ≤ s.gas ∧ 0 ≤ s.solvent

/-- Parameters of switching and projecting for which saturations are not moved away from what is admissible; the defaults are one,
one and something positive. -/
structure Sensible (s : SwitchParams K) : Prop where
  max : 1 ≤ s.waterSaturationMax
  threshold : 1 ≤ s.waterOnlyThreshold
  oscillation : 0 ≤ s.oscillationThreshold

/-- The saturated and maximum factors and the solubility of the fluid system are not negative. -/
structure FactorsNonneg (f : Fluid K) : Prop where
  rvwSat : ∀ a b c, 0 ≤ f.rvwSat a b c
  rswSat : ∀ a b c, 0 ≤ f.rswSat a b c
  rsSat : ∀ a b c d, 0 ≤ f.rsSat a b c d
  rvSat : ∀ a b c d, 0 ≤ f.rvSat a b c d
  extboRs : ∀ a b, 0 ≤ f.extboRs a b
  extboRv : ∀ a b, 0 ≤ f.extboRv a b
  solubility : ∀ a b c, 0 ≤ f.solubilityLimit a b c
  maxRs : 0 ≤ f.maxGasDissolutionFactor
  maxRv : 0 ≤ f.maxOilVaporizationFactor

end Verif.BlackOil
