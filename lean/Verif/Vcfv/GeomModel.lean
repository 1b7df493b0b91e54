import Mathlib.LinearAlgebra.Matrix.Determinant.Basic
import Mathlib.LinearAlgebra.Matrix.NonsingularInverse
import Verif.Vcfv.Model

/-
The geometry of a (multi-linear) image of the unit cube used to integrate over sub-control volumes, the tables of sub-control volumes of
the reference elements, and finite element gradients on vertex-centred grids.
-/

set_option autoImplicit false

namespace Verif.Vcfv

noncomputable section

/-! ### `QuadrialteralQuadratureGeometry` (opm/models/utils/quadraturegeometries.hh) -/

variable {d : ℕ}

/-- `cornerWeight` (opm/models/utils/quadraturegeometries.hh lines 134-145) -/
def cornerWeight (localPos : Fin d → ℝ) (cornerIdx : ℕ) : ℝ :=
  ∏ j : Fin d, if cornerIdx.testBit j then localPos j else 1 - localPos j

/-- `center_` (`setCorners`, opm/models/utils/quadraturegeometries.hh lines 51-64) -/
def center (corners : ℕ → Fin d → ℝ) : Fin d → ℝ := (1 / (2 ^ d : ℝ)) • ∑ cornerIdx ∈ Finset.range (2 ^ d), corners cornerIdx

/-- `global` (opm/models/utils/quadraturegeometries.hh lines 75-84) -/
def global (corners : ℕ → Fin d → ℝ) (localPos : Fin d → ℝ) : Fin d → ℝ :=
  ∑ cornerIdx ∈ Finset.range (2 ^ d), cornerWeight localPos cornerIdx • corners cornerIdx

/-- The derivative of a weight (`dWeight_dk` in `jacobian`, opm/models/utils/quadraturegeometries.hh lines 96-105) -/
def dWeight (localPos : Fin d → ℝ) (cornerIdx : ℕ) (k : Fin d) : ℝ :=
  (if cornerIdx.testBit k then 1 else -1) *
    ∏ j : Fin d, if k ≠ j then (if cornerIdx.testBit j then localPos j else 1 - localPos j) else 1

/-- `jacobian` (opm/models/utils/quadraturegeometries.hh lines 90-110) -/
def jacobian (corners : ℕ → Fin d → ℝ) (localPos : Fin d → ℝ) : Matrix (Fin d) (Fin d) ℝ :=
  fun k => ∑ cornerIdx ∈ Finset.range (2 ^ d), dWeight localPos cornerIdx k • corners cornerIdx

/-- `integrationElement` (opm/models/utils/quadraturegeometries.hh lines 117-122) -/
def integrationElement (corners : ℕ → Fin d → ℝ) (localPos : Fin d → ℝ) : ℝ := (jacobian corners localPos).det

/-! ### `VcfvScvGeometries` (opm/models/discretization/vcfv/vcfvstencil.hh)

The corners of the sub-control volume `v` of the reference elements. -/

/-- Lines (opm/models/discretization/vcfv/vcfvstencil.hh lines 79-89) -/
def lineScv (v : ℕ) (i : ℕ) : Fin 1 → ℝ :=
  ([[![0], ![1 / 2]], [![1 / 2], ![1]]].getD v []).getD i 0

/-- Triangles (opm/models/discretization/vcfv/vcfvstencil.hh lines 139-160) -/
def triangleScv (v : ℕ) (i : ℕ) : Fin 2 → ℝ :=
  ([[![0, 0], ![1 / 2, 0], ![1 / 3, 1 / 3], ![0, 1 / 2]],
    [![1 / 2, 0], ![1, 0], ![1 / 3, 1 / 3], ![1 / 2, 1 / 2]],
    [![0, 1 / 2], ![1 / 3, 1 / 3], ![0, 1], ![1 / 2, 1 / 2]]].getD v []).getD i 0

/-- Quadrilaterals (opm/models/discretization/vcfv/vcfvstencil.hh lines 191-220) -/
def squareScv (v : ℕ) (i : ℕ) : Fin 2 → ℝ :=
  ([[![0, 0], ![1 / 2, 0], ![0, 1 / 2], ![1 / 2, 1 / 2]],
    [![1 / 2, 0], ![1, 0], ![1 / 2, 1 / 2], ![1, 1 / 2]],
    [![0, 1 / 2], ![1 / 2, 1 / 2], ![0, 1], ![1 / 2, 1]],
    [![1 / 2, 1 / 2], ![1, 1 / 2], ![1 / 2, 1], ![1, 1]]].getD v []).getD i 0

/-- Tetrahedra (opm/models/discretization/vcfv/vcfvstencil.hh lines 252-296) -/
def tetrahedronScv (v : ℕ) (i : ℕ) : Fin 3 → ℝ :=
  ([[![0, 0, 0], ![1 / 2, 0, 0], ![0, 1 / 2, 0], ![1 / 3, 1 / 3, 0],
      ![0, 0, 1 / 2], ![1 / 3, 0, 1 / 3], ![0, 1 / 3, 1 / 3], ![1 / 4, 1 / 4, 1 / 4]],
    [![1 / 2, 0, 0], ![1, 0, 0], ![1 / 3, 1 / 3, 0], ![1 / 2, 1 / 2, 0],
      ![1 / 3, 0, 1 / 3], ![1 / 2, 0, 1 / 2], ![1 / 4, 1 / 4, 1 / 4], ![1 / 3, 1 / 3, 1 / 3]],
    [![0, 1 / 2, 0], ![1 / 3, 1 / 3, 0], ![0, 1, 0], ![1 / 2, 1 / 2, 0],
      ![0, 1 / 3, 1 / 3], ![1 / 4, 1 / 4, 1 / 4], ![0, 1 / 2, 1 / 2], ![1 / 3, 1 / 3, 1 / 3]],
    [![0, 0, 1 / 2], ![1 / 3, 0, 1 / 3], ![0, 1 / 3, 1 / 3], ![1 / 4, 1 / 4, 1 / 4],
      ![0, 0, 1], ![1 / 2, 0, 1 / 2], ![0, 1 / 2, 1 / 2], ![1 / 3, 1 / 3, 1 / 3]]].getD v []).getD i 0

/-- Hexahedra (opm/models/discretization/vcfv/vcfvstencil.hh lines 331-421) -/
def cubeScv (v : ℕ) (i : ℕ) : Fin 3 → ℝ :=
  ([[![0, 0, 0], ![1 / 2, 0, 0], ![0, 1 / 2, 0], ![1 / 2, 1 / 2, 0],
      ![0, 0, 1 / 2], ![1 / 2, 0, 1 / 2], ![0, 1 / 2, 1 / 2], ![1 / 2, 1 / 2, 1 / 2]],
    [![1 / 2, 0, 0], ![1, 0, 0], ![1 / 2, 1 / 2, 0], ![1, 1 / 2, 0],
      ![1 / 2, 0, 1 / 2], ![1, 0, 1 / 2], ![1 / 2, 1 / 2, 1 / 2], ![1, 1 / 2, 1 / 2]],
    [![0, 1 / 2, 0], ![1 / 2, 1 / 2, 0], ![0, 1, 0], ![1 / 2, 1, 0],
      ![0, 1 / 2, 1 / 2], ![1 / 2, 1 / 2, 1 / 2], ![0, 1, 1 / 2], ![1 / 2, 1, 1 / 2]],
    [![1 / 2, 1 / 2, 0], ![1, 1 / 2, 0], ![1 / 2, 1, 0], ![1, 1, 0],
      ![1 / 2, 1 / 2, 1 / 2], ![1, 1 / 2, 1 / 2], ![1 / 2, 1, 1 / 2], ![1, 1, 1 / 2]],
    [![0, 0, 1 / 2], ![1 / 2, 0, 1 / 2], ![0, 1 / 2, 1 / 2], ![1 / 2, 1 / 2, 1 / 2],
      ![0, 0, 1], ![1 / 2, 0, 1], ![0, 1 / 2, 1], ![1 / 2, 1 / 2, 1]],
    [![1 / 2, 0, 1 / 2], ![1, 0, 1 / 2], ![1 / 2, 1 / 2, 1 / 2], ![1, 1 / 2, 1 / 2],
      ![1 / 2, 0, 1], ![1, 0, 1], ![1 / 2, 1 / 2, 1], ![1, 1 / 2, 1]],
    [![0, 1 / 2, 1 / 2], ![1 / 2, 1 / 2, 1 / 2], ![0, 1, 1 / 2], ![1 / 2, 1, 1 / 2],
      ![0, 1 / 2, 1], ![1 / 2, 1 / 2, 1], ![0, 1, 1], ![1 / 2, 1, 1]],
    [![1 / 2, 1 / 2, 1 / 2], ![1, 1 / 2, 1 / 2], ![1 / 2, 1, 1 / 2], ![1, 1, 1 / 2],
      ![1 / 2, 1 / 2, 1], ![1, 1 / 2, 1], ![1 / 2, 1, 1], ![1, 1, 1]]].getD v []).getD i 0

/-! ### `P1FeGradientCalculator` (opm/models/discretization/vcfv/p1fegradientcalculator.hh)

Shape functions are those of dune-localfunctions: barycentric coordinates for simplices, products of linear functions for cubes.  The
geometry of an element (dune-geometry) maps the position `ξ` in the reference element to `∑ φ_i(ξ) x_i`. -/

/-- The kinds of elements -/
inductive Kind
  | simplex
  | cube

/-- The number of corners -/
def Kind.numVertices (d : ℕ) : Kind → ℕ
  | .simplex => d + 1
  | .cube => 2 ^ d

/-- `evaluateFunction` (dune-localfunctions) -/
def shape (kind : Kind) (ξ : Fin d → ℝ) (i : ℕ) : ℝ :=
  match kind with
  | .simplex => if i = 0 then 1 - ∑ j, ξ j else if h : i - 1 < d then ξ ⟨i - 1, h⟩ else 0
  | .cube => cornerWeight ξ i

/-- `evaluateJacobian` (dune-localfunctions) -/
def shapeGradient (kind : Kind) (ξ : Fin d → ℝ) (i : ℕ) : Fin d → ℝ :=
  match kind with
  | .simplex => fun k => if i = 0 then -1 else if i - 1 = k.val then 1 else 0
  | .cube => fun k => dWeight ξ i k

/-- `jacobianTransposed` of the geometry (dune-geometry): the row `k` is the derivative of the position by the coordinate `k`. -/
def jacobianTransposed (kind : Kind) (x : ℕ → Fin d → ℝ) (ξ : Fin d → ℝ) : Matrix (Fin d) (Fin d) ℝ :=
  fun k => ∑ i ∈ Finset.range (kind.numVertices d), shapeGradient kind ξ i k • x i

/-- `p1Gradient_[faceIdx][vertIdx]` (`prepare`, opm/models/discretization/vcfv/p1fegradientcalculator.hh lines 115-131);
`jacobianInverseTransposed` of the geometry is the inverse of `jacobianTransposed`. -/
def p1Gradient (kind : Kind) (x : ℕ → Fin d → ℝ) (ξ : Fin d → ℝ) (i : ℕ) : Fin d → ℝ :=
  (jacobianTransposed kind x ξ)⁻¹.mulVec (shapeGradient kind ξ i)

/-- A value with its derivatives by the primary variables of the focus degree of freedom -/
structure Eval (m : ℕ) where
  value : ℝ
  deriv : Fin m → ℝ

/-- `calculateScalarValue` (opm/models/discretization/vcfv/p1fegradientcalculator.hh lines 151-184); the quantity of corners other than the
focus is used without its derivatives. -/
def calculateScalarValue {m : ℕ} (kind : Kind) (ξ : Fin d → ℝ) (focus : ℕ) (quantity : ℕ → Eval m) : Eval m where
  value := ∑ i ∈ Finset.range (kind.numVertices d), (quantity i).value * shape kind ξ i
  deriv := fun l => ∑ i ∈ Finset.range (kind.numVertices d), (if focus = i then (quantity i).deriv l else 0) * shape kind ξ i

/-- `calculateGradient` (opm/models/discretization/vcfv/p1fegradientcalculator.hh lines 251-290) -/
def calculateGradient {m : ℕ} (kind : Kind) (x : ℕ → Fin d → ℝ) (ξ : Fin d → ℝ) (focus : ℕ) (quantity : ℕ → Eval m) : Fin d → Eval m :=
  fun k => {
    value := ∑ i ∈ Finset.range (kind.numVertices d), (quantity i).value * p1Gradient kind x ξ i k
    deriv := fun l => ∑ i ∈ Finset.range (kind.numVertices d), (if focus = i then (quantity i).deriv l else 0) * p1Gradient kind x ξ i k }

end

end Verif.Vcfv
