import Mathlib.Analysis.SpecialFunctions.Pow.Real

set_option autoImplicit false
/-
Model of the reactions of microbially induced calcite precipitation: `BlackOilMICPModule::addSource`
(opm/models/blackoil/blackoilmicpmodules.hh lines 299-356), `checkCloggingMICP` (lines 147-152), `MICPPropertiesUpdate_`
(lines 492-514), the limits of the Newton update (opm/models/blackoil/blackoilnewtonmethod.hh lines 395-409) and the porosity
(opm/models/blackoil/blackoilintensivequantities.hh lines 445-471).  Numbers are real; only values, no derivatives.
-/
namespace Verif.Extend.Micp

noncomputable section

/-- The parameters of the deck (opm/models/blackoil/blackoilmicpparams.hh lines 37-55), not scaled: urea is measured in its usual unit here. -/
structure Par where
  attachment : ℝ
  death : ℝ
  rhoBiofilm : ℝ
  rhoCalcite : ℝ
  detachmentRate : ℝ
  halfOxygen : ℝ
  halfUrea : ℝ
  growth : ℝ
  ureaUtilization : ℝ
  yield : ℝ
  oxygenFactor : ℝ
  critical : ℝ
  fitting : ℝ
  kMin : ℝ
  maxOxygen : ℝ
  maxUrea : ℝ
  tolerance : ℝ

/-- The state of a cell: concentrations (urea divided by ten, as the code stores it) and porosity. -/
structure Cell where
  microbes : ℝ
  oxygen : ℝ
  urea : ℝ
  biofilm : ℝ
  calcite : ℝ
  porosity : ℝ

/-- The source terms of the five equations. -/
structure Src where
  microbes : ℝ
  oxygen : ℝ
  urea : ℝ
  biofilm : ℝ
  calcite : ℝ

/-- `pow(x, y)` of the C++ library for positive `y`: not a number if `x` is negative and `y` is not an integer. -/
def powC (x y : ℝ) : Option ℝ := open Classical in if 0 ≤ x ∨ ∃ n : ℤ, y = n then some (x ^ y) else none

/-- `dpW`: the largest pressure gradient of the faces (volume flux and mobility of the upstream cell),
opm/models/blackoil/blackoilmicpmodules.hh lines 308-323. -/
def pressureGradient (perm : ℝ) (faces : List (ℝ × ℝ)) : ℝ := faces.foldl (fun m f => max m |f.1 / (perm * f.2)|) 0

/-- `Y_uc`, opm/models/blackoil/blackoilmicpmodules.hh line 338. -/
def yieldCalcite : ℝ := 167 / 100 * 10

/-- `addSource`, opm/models/blackoil/blackoilmicpmodules.hh lines 299-356, for sources which were zero before: `k_u` and `mu_u`
are divided by ten (lines 332 and 334). -/
def addSource (p : Par) (c : Cell) (dpW : ℝ) : Option Src :=
  (powC (c.porosity * dpW) (58 / 100)).map fun shear =>
    let kU := p.halfUrea / 10
    let muU := p.ureaUtilization / 10
    { microbes := c.microbes * c.porosity * (p.yield * p.growth * c.oxygen / (p.halfOxygen + c.oxygen) - p.death - p.attachment)
        + p.rhoBiofilm * c.biofilm * p.detachmentRate * shear
      oxygen := - ((c.microbes * c.porosity + p.rhoBiofilm * c.biofilm) * p.oxygenFactor * p.growth * c.oxygen
        / (p.halfOxygen + c.oxygen))
      urea := - (p.rhoBiofilm * c.biofilm * muU * c.urea / (kU + c.urea))
      biofilm := c.biofilm * (p.yield * p.growth * c.oxygen / (p.halfOxygen + c.oxygen) - p.death - p.detachmentRate * shear
          - yieldCalcite * (p.rhoBiofilm / p.rhoCalcite) * c.biofilm * muU * (c.urea / (kU + c.urea)) / (c.porosity + c.biofilm))
        + p.attachment * c.microbes * c.porosity / p.rhoBiofilm
      calcite := p.rhoBiofilm / p.rhoCalcite * c.biofilm * yieldCalcite * muU * c.urea / (kU + c.urea) }

/-- The factor of the water mobility, opm/models/blackoil/blackoilmicpmodules.hh line 512. -/
def mobilityFactor (p : Par) (perm reference porosity : ℝ) : Option ℝ :=
  (powC ((porosity - p.critical) / (reference - p.critical)) p.fitting).map fun x =>
    max ((x + p.kMin / perm) / (1 + p.kMin / perm)) (p.kMin / perm)

/-- `std::clamp`: undefined if the upper limit is below the lower one. -/
def clamp (x lo hi : ℝ) : Option ℝ := open Classical in if hi < lo then none else some (min (max x lo) hi)

/-- The limits of the Newton update, opm/models/blackoil/blackoilnewtonmethod.hh lines 400-409; `phi` is the porosity of the deck. -/
def limit (p : Par) (phi : ℝ) (c : Cell) : Option Cell := do
  let m ← clamp c.microbes 0 p.rhoBiofilm
  let o ← clamp c.oxygen 0 p.maxOxygen
  let u ← clamp c.urea 0 (p.maxUrea / 10)
  let b ← clamp c.biofilm 0 (phi - p.tolerance)
  let k ← clamp c.calcite 0 (phi - p.tolerance)
  pure ⟨m, o, u, b, k, c.porosity⟩

/-- The porosity of a cell, opm/models/blackoil/blackoilintensivequantities.hh lines 445-471, `x` is the compressibility times the
excess pressure (zero if the compressibility is not positive), `mult` the multiplier of compaction. -/
def porosity (phi x mult : ℝ) (c : Cell) : ℝ := phi * (1 + x + 1 / 2 * x * x) * mult + (- c.biofilm - c.calcite)

/-- `checkCloggingMICP`, opm/models/blackoil/blackoilmicpmodules.hh lines 147-152: `false` if an exception is thrown. -/
def checkClogging (p : Par) (phi : ℝ) (c : Cell) : Bool := open Classical in ! decide (phi - c.biofilm - c.calcite < p.tolerance)

end

end Verif.Extend.Micp
