import Verif.Flux.Content

set_option autoImplicit false
/-
Model of the mobilities, densities and the porosity of the black-oil model, `BlackOilIntensiveQuantities::update`
(opm/models/blackoil/blackoilintensivequantities.hh lines 371-477; saturations, pressures and compositions are in
`Verif/BlackOil/FluidState.lean`), and of the corrections of mobilities by the additional modules.  Only values, no derivatives.
-/
namespace Verif.Extend.IQ

open Verif.Flux (Phase Options Fluid)

variable {K : Type} [Field K] [LinearOrder K]

/-- `mobility_` and `dirMob_`: by phase, the latter also by direction 0, 1, 2
(opm/models/common/directionalmobility.hh lines 37-67, opm/models/blackoil/blackoilintensivequantities.hh lines 610-628). -/
structure Mobilities (K : Type) where
  plain : Phase → K
  directional : Option (Fin 3 → Phase → K)

/-- Division by the viscosities, opm/models/blackoil/blackoilintensivequantities.hh lines 371-400: `viscosity` is the one of the
fluid system, for oil and gas with the extended black-oil module the one of that module. -/
def divide (viscosity : Phase → K) (active : Phase → Bool) (kr : Mobilities K) : Mobilities K where
  plain p := if active p then kr.plain p / viscosity p else kr.plain p
  directional := kr.directional.map fun d i p => if active p then d i p / viscosity p else d i p

/-- A correction by a module: `mobility_[phaseIdx] *= factor`
(opm/models/blackoil/blackoilpolymermodules.hh line 894, opm/models/blackoil/blackoilfoammodules.hh lines 541-553,
opm/models/blackoil/blackoilmicpmodules.hh line 512, opm/models/blackoil/blackoilbrinemodules.hh lines 487-492,
opm/models/blackoil/blackoilsolventmodules.hh lines 1222-1249). -/
def correct (factor : Phase → K) (m : Mobilities K) : Mobilities K := { m with plain := fun p => m.plain p * factor p }

/-- The directions of faces. -/
inductive FaceDir
  | xMinus | xPlus | yMinus | yPlus | zMinus | zPlus | unknown
  deriving DecidableEq

/-- `mobility(phaseIdx, facedir)`, opm/models/blackoil/blackoilintensivequantities.hh lines 530-552; `none` is an exception. -/
def mobility (m : Mobilities K) (p : Phase) (dir : FaceDir) : Option K :=
  match m.directional with
  | none => some (m.plain p)
  | some d => match dir with
    | .xMinus | .xPlus => some (d 0 p)
    | .yMinus | .yPlus => some (d 1 p)
    | .zMinus | .zPlus => some (d 2 p)
    | .unknown => none

/-- `relativePermeability`, opm/models/blackoil/blackoilintensivequantities.hh lines 580-584. -/
def relativePermeability (viscosity : Phase → K) (m : Mobilities K) (p : Phase) : K := viscosity p * m.plain p

/-- The densities, opm/models/blackoil/blackoilintensivequantities.hh lines 403-443. -/
def density (o : Options) (ref : Phase → K) (fs : Fluid K) : Phase → K
  | .water => fs.invB .water * ref .water + (if o.dissolvedGasInWater then fs.invB .water * fs.rsw * ref .gas else 0)
  | .gas => fs.invB .gas * ref .gas + (if o.vaporizedOil then fs.invB .gas * fs.rv * ref .oil else 0)
      + (if o.vaporizedWater then fs.invB .gas * fs.rvw * ref .water else 0)
  | .oil => fs.invB .oil * ref .oil + (if o.dissolvedGas then fs.invB .oil * fs.rs * ref .gas else 0)

/-- What changes the porosity: compressibility and reference pressure of the rock, the multiplier of rock compaction, biofilm and
calcite of the MICP module (0 without), the saturation of solid salt (0 unless it is a primary variable). -/
structure Rock (K : Type) where
  compressibility : K
  refPressure : K
  multiplier : K
  biofilm : K
  calcite : K
  salt : K

/-- `x` of opm/models/blackoil/blackoilintensivequantities.hh lines 452-462: oil pressure if oil is active, else that of water, else
that of gas. -/
def pressureForRock (active : Phase → Bool) (pressure : Phase → K) : K :=
  if active .oil then pressure .oil else if active .water then pressure .water else pressure .gas

/-- `porosity_`, opm/models/blackoil/blackoilintensivequantities.hh lines 445-477. -/
def porosity (r : Rock K) (refPorosity p : K) : K :=
  let x := r.compressibility * (p - r.refPressure)
  let phi := if 0 < r.compressibility then refPorosity * (1 + x + 1 / 2 * x * x) else refPorosity
  (phi * r.multiplier + (- r.biofilm - r.calcite)) * (1 - r.salt)

end Verif.Extend.IQ
