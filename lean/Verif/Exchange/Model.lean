import Verif.Deriv.Model
import Mathlib.Analysis.SpecialFunctions.Pow.Real

set_option autoImplicit false

/-
Tortuosity and boundary rates of the generic energy and diffusion modules; the fluxes are those of `Verif.Deriv`.

Models `opm/models/common/energymodule.hh`, `opm/models/common/diffusionmodule.hh` and the boundary rates of the flash, NCP and PVS models.
-/
namespace Verif.Exchange

open Verif.Deriv

noncomputable section

/-- The tortuosity of a phase, `DiffusionIntensiveQuantities::update_`, opm/models/common/diffusionmodule.hh lines 254-263 (Millington and
Quirk). -/
def tortuosity (porosity saturation : ℝ) : ℝ :=
  1 / (porosity * porosity) * max (1 / 10000) (porosity * saturation) ^ (10 / 3 : ℝ)

/-- `effectiveDiffusionCoefficient`, opm/models/common/diffusionmodule.hh lines 231-232. -/
def effective (porosity saturation coefficient : ℝ) : ℝ := tortuosity porosity saturation * coefficient

/-- The rate of a component over a free-flow boundary in the flash, NCP and PVS models, opm/models/flash/flashboundaryratevector.hh lines
98-130, opm/models/ncp/ncpboundaryratevector.hh lines 101-130, opm/models/pvs/pvsboundaryratevector.hh lines 100-129, for given volume fluxes.
The mole fraction gradients which `updateBoundary_` computes (opm/models/common/diffusionmodule.hh lines 413-461) are not used. -/
def freeFlowRate {P : Type} [Fintype P] (volumeFlux pressureOut pressureIn molarityOut molarityIn : P → ℝ) : ℝ :=
  ∑ p, volumeFlux p * (if pressureIn p < pressureOut p then molarityOut p else molarityIn p)

/-- The same face seen from the other side. -/
def swap {dim : ℕ} (g : Geom dim) : Geom dim :=
  { g with posIn := g.posEx, posEx := g.posIn, normal := fun k => - g.normal k, gIn := g.gEx, gEx := g.gIn }

end

end Verif.Exchange
