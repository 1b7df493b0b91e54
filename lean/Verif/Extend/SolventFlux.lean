import Verif.Extend.Model
import Mathlib.Algebra.Order.AbsoluteValue.Basic

set_option autoImplicit false
set_option linter.unusedSectionVars false
/-
Model of the volume flux of the solvent "phase" (opm/models/blackoil/blackoilsolventmodules.hh).
-/
namespace Verif.Extend

variable {K : Type} [Field K] [LinearOrder K]

/-- What the flux needs of a cell: its local index in the stencil of the element which is looked at, the depth of its centre,
the pressure of the gas, and density and mobility of the solvent. -/
structure SCell (K : Type) where
  dofIdx : ℕ
  z : K
  pressure : K
  density : K
  mobility : K

/-- `pressureExterior - pressureInterior` with the correction for gravity,
opm/models/blackoil/blackoilsolventmodules.hh lines 1472-1484. -/
def solventPressureDiff (g : K) (a b : SCell K) : K :=
  (b.pressure + (a.z - b.z) * g * (a.density * (1/2) + b.density * (1/2))) - a.pressure

/-- The reduction by the threshold pressure, opm/models/blackoil/blackoilsolventmodules.hh lines 1485-1492. -/
def applyThreshold (thpres d : K) : K :=
  if thpres < |d| then (if d < 0 then d + thpres else d - thpres) else 0

/-- `updateVolumeFluxTrans`, opm/models/blackoil/blackoilsolventmodules.hh lines 1452-1524, seen from cell `a`; the flux is per
area. -/
def solventVolumeFluxTrans (thpres trans faceArea g : K) (a b : SCell K) : PhaseFlux K :=
  let d := applyThreshold thpres (solventPressureDiff g a b)
  if 0 < d then ⟨b.mobility * (- trans / faceArea) * d, true⟩
  else if d < 0 then ⟨a.mobility * (- trans / faceArea) * d, false⟩
  else ⟨0, decide (min a.dofIdx b.dofIdx ≠ a.dofIdx)⟩

/-- `updateVolumeFluxPerm`, opm/models/blackoil/blackoilsolventmodules.hh lines 1420-1444, after the gradient of the potential
has been computed: `gradNormal` is its component normal to the face. -/
def solventVolumeFluxPerm (gradNormal : K) (a b : SCell K) : PhaseFlux K :=
  if 0 < gradNormal then ⟨gradNormal * b.mobility, true⟩ else ⟨gradNormal * a.mobility, false⟩

end Verif.Extend
