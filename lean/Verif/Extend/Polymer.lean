import Mathlib.Analysis.SpecialFunctions.Pow.Real
import Mathlib.Analysis.SpecialFunctions.Log.Basic

set_option autoImplicit false
/-
Model of what polymer does to water: `polymerPropertiesUpdate_` (opm/models/blackoil/blackoilpolymermodules.hh lines 834-899),
`computeShearFactor` (lines 711-784) and `updateShearMultipliers` (lines 1036-1095).  Numbers are real; only values, no
derivatives.  Tables (`Tabulated1DFunction` of opm-common) are arbitrary functions.
-/
namespace Verif.Extend.Poly

noncomputable section

/-- The polymer parameters of a cell: adsorbed mass and viscosity multiplier as functions of the concentration, whether adsorbed
polymer stays adsorbed, maximum adsorption, residual resistance factor, maximum concentration, Todd-Longstaff parameter. -/
structure Rock where
  adsorbed : ℝ → ℝ
  multiplier : ℝ → ℝ
  noDesorption : Bool
  maxAdsorption : ℝ
  residualResistance : ℝ
  cmax : ℝ
  omega : ℝ

/-- `polymerAdsorption_`, opm/models/blackoil/blackoilpolymermodules.hh lines 846-852; `history` is the largest adsorption so far. -/
def adsorption (r : Rock) (history c : ℝ) : ℝ := if r.noDesorption then max history (r.adsorbed c) else r.adsorbed c

/-- `resistanceFactor`, opm/models/blackoil/blackoilpolymermodules.hh line 856. -/
def resistance (r : Rock) (history c : ℝ) : ℝ := 1 + (r.residualResistance - 1) * adsorption r history c / r.maxAdsorption

/-- `viscosityPolymerEffective` and `viscosityWaterEffective`, opm/models/blackoil/blackoilpolymermodules.hh lines 862-869. -/
def polymerEffective (r : Rock) (muWater c : ℝ) : ℝ :=
  (r.multiplier c * muWater) ^ r.omega * (r.multiplier r.cmax * muWater) ^ (1 - r.omega)

@[inherit_doc polymerEffective]
def waterEffective (r : Rock) (muWater c : ℝ) : ℝ := (r.multiplier c * muWater) ^ r.omega * muWater ^ (1 - r.omega)

/-- `waterViscosityCorrection_`, opm/models/blackoil/blackoilpolymermodules.hh lines 872-874. -/
def waterCorrection (r : Rock) (muWater c : ℝ) : ℝ :=
  muWater * ((1 - c / r.cmax) / waterEffective r muWater c + c / r.cmax / polymerEffective r muWater c)

/-- `polymerViscosityCorrection_`, opm/models/blackoil/blackoilpolymermodules.hh line 876. -/
def polymerCorrection (r : Rock) (muWater c : ℝ) : ℝ := muWater / waterCorrection r muWater c / polymerEffective r muWater c

/-- The Mark-Houwink variant of `waterViscosityCorrection_`, opm/models/blackoil/blackoilpolymermodules.hh lines 878-890. -/
def waterCorrectionMH (kMh aMh gamma kappa weight c : ℝ) : ℝ :=
  let x := c * (kMh * (weight * 1000) ^ aMh)
  1 / (1 + gamma * (x + kappa * x * x))

/-- The water mobility, opm/models/blackoil/blackoilpolymermodules.hh line 894. -/
def waterMobility (r : Rock) (mobility muWater history c : ℝ) : ℝ :=
  mobility * (waterCorrection r muWater c / resistance r history c)

/-- `F` of `computeShearFactor`, opm/models/blackoil/blackoilpolymermodules.hh lines 751-753. -/
def residual (logZ : ℝ → ℝ) (logV0 u : ℝ) : ℝ := u + logZ u - logV0

/-- The Newton method of `computeShearFactor`, opm/models/blackoil/blackoilpolymermodules.hh lines 764-776: `some u` if it has
converged within the iterations left; the iterate is updated before the loop is left. -/
def newton (logZ slope : ℝ → ℝ) (logV0 : ℝ) : ℕ → ℝ → Option ℝ
  | 0, _ => none
  | n + 1, u =>
    let f := residual logZ logV0 u
    let u' := u - f / (1 + slope u)
    if |f| < 1 / 1000000000000 then some u' else newton logZ slope logV0 n u'

/-- `computeShearFactor`, opm/models/blackoil/blackoilpolymermodules.hh lines 711-784.  `viscosityMultiplier` is the value of the
table at the concentration, `logZ` and `slope` are the interpolation in the table of the logarithms of the shear multipliers,
which starts at `logFirst`; `none` if it throws. -/
def computeShearFactor (viscosityMultiplier logFirst : ℝ) (logZ slope : ℝ → ℝ) (v0 : ℝ) : Option ℝ :=
  if |viscosityMultiplier - 1| < 1 / 100000000000000 then some 1
  else if Real.log |v0| < logFirst then some 1
  else (newton logZ slope (Real.log |v0|) 20 (Real.log |v0|)).map fun u => Real.exp (logZ u)

/-- What `updateShearMultipliers` knows about a degree of freedom of the stencil. -/
structure Dof where
  porosity : ℝ
  satWater : ℝ
  concentration : ℝ
  pvtRegion : ℕ
  swcr : ℝ

/-- `waterShearFactor_` of `updateShearMultipliers` without SHRATE, opm/models/blackoil/blackoilpolymermodules.hh lines 1036-1088.
`dofs` are those of the stencil by local index, `shear` is `computeShearFactor` by region, concentration and velocity.  The region
and the critical saturation are those of the degree of freedom whose local index is the one of the face (lines 1057 and 1059). -/
def waterShearFactor (dofs : ℕ → Dof) (shear : ℕ → ℝ → ℝ → ℝ) (scvfIdx interior exterior upstream : ℕ) (volumeFlux : ℝ) : ℝ :=
  let poro := (dofs interior).porosity * (1 / 2) + (dofs exterior).porosity * (1 / 2)
  let denom := max (poro * ((dofs upstream).satWater - (dofs scvfIdx).swcr)) (1 / 1000000000000)
  shear (dofs scvfIdx).pvtRegion (dofs upstream).concentration (volumeFlux / denom)

end

end Verif.Extend.Poly
