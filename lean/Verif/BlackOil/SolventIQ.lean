import Verif.BlackOil.FluidState

set_option autoImplicit false
/-
Model of the amount of solvent which is dissolved in water (`rsSolw`), opm/models/blackoil/blackoilsolventmodules.hh.
-/
namespace Verif.BlackOil

variable {K : Type} [Field K] [LinearOrder K]

/-- `solubilityLimit`, opm/models/blackoil/blackoilsolventmodules.hh lines 734-751; `f.solubilityLimit` is that of the PVT relation for
CO2 or H2 in brine. -/
def solventLimit (f : Fluid K) (T p salt : K) : K := if f.solventInWater then f.solubilityLimit T p salt else 0

/-- `rsSolw_`, opm/models/blackoil/blackoilsolventmodules.hh lines 848-855, with the temperature, the water pressure and the salt
concentration of the fluid state; zero without the solvent module. -/
def readRsSolw (L : Layout) (f : Fluid K) (v : PriVars K) : K :=
  if 0 ≤ L.solventSaturationIdx then
    match v.solvent with
    | .Ss => solventLimit f (read L f v).temperature (read L f v).pw (readSalt L f v)
    | .Rsolw => v.val L.solventSaturationIdx
    | .Disabled => 0
  else 0

end Verif.BlackOil
