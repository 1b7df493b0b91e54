import Mathlib.Analysis.SpecialFunctions.Sqrt
import Mathlib.Algebra.BigOperators.Fin
/-
Model of the two-point gradient calculator `opm/models/discretization/common/fvbasegradientcalculator.hh`.
Derivatives (the focus) are not modelled here: they only decide which of the two values carry derivatives.
-/

set_option autoImplicit false

namespace Verif.Gradient

variable {dim : ℕ}

/-- A face between two finite volumes: the positions of the interior and of the exterior volume, the integration point and
the normal of the face. -/
structure Face (dim : ℕ) where
  interiorPos : Fin dim → ℝ
  exteriorPos : Fin dim → ℝ
  integrationPos : Fin dim → ℝ
  normal : Fin dim → ℝ

/-- `computeDistances_` (opm/models/discretization/common/fvbasegradientcalculator.hh lines 321-352), for one of the two
volumes. -/
noncomputable def distance (pos integrationPos normal : Fin dim → ℝ) : ℝ :=
  √|∑ k, (pos k - integrationPos k) * normal k|

/-- `calculateScalarValue` (opm/models/discretization/common/fvbasegradientcalculator.hh lines 94-127); `qi` and `qj` are
the values of the quantity in the interior and in the exterior volume. -/
noncomputable def scalarValue (f : Face dim) (qi qj : ℝ) : ℝ :=
  (qi * distance f.interiorPos f.integrationPos f.normal + qj * distance f.exteriorPos f.integrationPos f.normal) /
    (distance f.interiorPos f.integrationPos f.normal + distance f.exteriorPos f.integrationPos f.normal)

/-- `calculateGradient` (opm/models/discretization/common/fvbasegradientcalculator.hh lines 201-246); for boundary faces
`calculateBoundaryGradient` (lines 279-318) is the same with the integration point as second position. -/
noncomputable def gradient (interiorPos exteriorPos : Fin dim → ℝ) (qi qj : ℝ) : Fin dim → ℝ :=
  let distSquared := ∑ k, (exteriorPos k - interiorPos k) * (exteriorPos k - interiorPos k)
  fun k => (qj - qi) * ((exteriorPos k - interiorPos k) / distSquared)

end Verif.Gradient
