import Mathlib.Algebra.Order.Field.Basic
import Mathlib.LinearAlgebra.Matrix.Notation
import Mathlib.Data.Matrix.Mul

/-
The inversion of matrix blocks.

Models `Opm::detail::invertMatrix4` and the overloads of `invertMatrix` that use it
(opm/simulators/linalg/matrixblock.hh:69-222).

Simplifications: entries are elements of an ordered field instead of floating point numbers.  The overloads for other
sizes call Dune (opm/simulators/linalg/matrixblock.hh:41-67,221), which is not part of this repository, and are not modelled.
-/

set_option autoImplicit false

namespace Verif.Inverse

variable {K : Type} [Field K] [LinearOrder K] [IsStrictOrderedRing K]

/-- The threshold for singular matrices, `1e-40` (opm/simulators/linalg/matrixblock.hh:189). -/
def threshold : K := 1 / 10 ^ 40

/-- The outcome of an inversion: the determinant and the contents of `inverse`, or the exception `NumericalProblem`.  If it
is thrown, `inverse` has been filled with NaN (opm/simulators/linalg/matrixblock.hh:190). -/
inductive Outcome (K : Type) where
  | inverted (det : K) (inverse : Matrix (Fin 4) (Fin 4) K)
  | singular

/-- The sixteen assignments to `inverse` (opm/simulators/linalg/matrixblock.hh:73-183). -/
def cofactors (m : Matrix (Fin 4) (Fin 4) K) : Matrix (Fin 4) (Fin 4) K :=
  Matrix.of ![
    ![
      m 1 1 * m 2 2 * m 3 3 - m 1 1 * m 2 3 * m 3 2 - m 2 1 * m 1 2 * m 3 3
       + m 2 1 * m 1 3 * m 3 2 + m 3 1 * m 1 2 * m 2 3 - m 3 1 * m 1 3 * m 2 2,
      -m 0 1 * m 2 2 * m 3 3 + m 0 1 * m 2 3 * m 3 2 + m 2 1 * m 0 2 * m 3 3
       - m 2 1 * m 0 3 * m 3 2 - m 3 1 * m 0 2 * m 2 3 + m 3 1 * m 0 3 * m 2 2,
      m 0 1 * m 1 2 * m 3 3 - m 0 1 * m 1 3 * m 3 2 - m 1 1 * m 0 2 * m 3 3
       + m 1 1 * m 0 3 * m 3 2 + m 3 1 * m 0 2 * m 1 3 - m 3 1 * m 0 3 * m 1 2,
      -m 0 1 * m 1 2 * m 2 3 + m 0 1 * m 1 3 * m 2 2 + m 1 1 * m 0 2 * m 2 3
       - m 1 1 * m 0 3 * m 2 2 - m 2 1 * m 0 2 * m 1 3 + m 2 1 * m 0 3 * m 1 2],
    ![
      -m 1 0 * m 2 2 * m 3 3 + m 1 0 * m 2 3 * m 3 2 + m 2 0 * m 1 2 * m 3 3
       - m 2 0 * m 1 3 * m 3 2 - m 3 0 * m 1 2 * m 2 3 + m 3 0 * m 1 3 * m 2 2,
      m 0 0 * m 2 2 * m 3 3 - m 0 0 * m 2 3 * m 3 2 - m 2 0 * m 0 2 * m 3 3
       + m 2 0 * m 0 3 * m 3 2 + m 3 0 * m 0 2 * m 2 3 - m 3 0 * m 0 3 * m 2 2,
      -m 0 0 * m 1 2 * m 3 3 + m 0 0 * m 1 3 * m 3 2 + m 1 0 * m 0 2 * m 3 3
       - m 1 0 * m 0 3 * m 3 2 - m 3 0 * m 0 2 * m 1 3 + m 3 0 * m 0 3 * m 1 2,
      m 0 0 * m 1 2 * m 2 3 - m 0 0 * m 1 3 * m 2 2 - m 1 0 * m 0 2 * m 2 3
       + m 1 0 * m 0 3 * m 2 2 + m 2 0 * m 0 2 * m 1 3 - m 2 0 * m 0 3 * m 1 2],
    ![
      m 1 0 * m 2 1 * m 3 3 - m 1 0 * m 2 3 * m 3 1 - m 2 0 * m 1 1 * m 3 3
       + m 2 0 * m 1 3 * m 3 1 + m 3 0 * m 1 1 * m 2 3 - m 3 0 * m 1 3 * m 2 1,
      -m 0 0 * m 2 1 * m 3 3 + m 0 0 * m 2 3 * m 3 1 + m 2 0 * m 0 1 * m 3 3
       - m 2 0 * m 0 3 * m 3 1 - m 3 0 * m 0 1 * m 2 3 + m 3 0 * m 0 3 * m 2 1,
      m 0 0 * m 1 1 * m 3 3 - m 0 0 * m 1 3 * m 3 1 - m 1 0 * m 0 1 * m 3 3
       + m 1 0 * m 0 3 * m 3 1 + m 3 0 * m 0 1 * m 1 3 - m 3 0 * m 0 3 * m 1 1,
      -m 0 0 * m 1 1 * m 2 3 + m 0 0 * m 1 3 * m 2 1 + m 1 0 * m 0 1 * m 2 3
       - m 1 0 * m 0 3 * m 2 1 - m 2 0 * m 0 1 * m 1 3 + m 2 0 * m 0 3 * m 1 1],
    ![
      -m 1 0 * m 2 1 * m 3 2 + m 1 0 * m 2 2 * m 3 1 + m 2 0 * m 1 1 * m 3 2
       - m 2 0 * m 1 2 * m 3 1 - m 3 0 * m 1 1 * m 2 2 + m 3 0 * m 1 2 * m 2 1,
      m 0 0 * m 2 1 * m 3 2 - m 0 0 * m 2 2 * m 3 1 - m 2 0 * m 0 1 * m 3 2
       + m 2 0 * m 0 2 * m 3 1 + m 3 0 * m 0 1 * m 2 2 - m 3 0 * m 0 2 * m 2 1,
      -m 0 0 * m 1 1 * m 3 2 + m 0 0 * m 1 2 * m 3 1 + m 1 0 * m 0 1 * m 3 2
       - m 1 0 * m 0 2 * m 3 1 - m 3 0 * m 0 1 * m 1 2 + m 3 0 * m 0 2 * m 1 1,
      m 0 0 * m 1 1 * m 2 2 - m 0 0 * m 1 2 * m 2 1 - m 1 0 * m 0 1 * m 2 2
       + m 1 0 * m 0 2 * m 2 1 + m 2 0 * m 0 1 * m 1 2 - m 2 0 * m 0 2 * m 1 1]]

/-- `K det = ...` (opm/simulators/linalg/matrixblock.hh:185-186). -/
def determinant (m : Matrix (Fin 4) (Fin 4) K) : K :=
  m 0 0 * cofactors m 0 0 + m 0 1 * cofactors m 1 0 + m 0 2 * cofactors m 2 0 + m 0 3 * cofactors m 3 0

/-- `invertMatrix4` (opm/simulators/linalg/matrixblock.hh:69-197): `if (std::abs(det) < 1e-40) throw`, else `inverse *= 1.0 / det; return det`. -/
def invertMatrix4 (m : Matrix (Fin 4) (Fin 4) K) : Outcome K :=
  if |determinant m| < threshold then .singular
  else .inverted (determinant m) (Matrix.of fun i j => cofactors m i j * (1 / determinant m))

/-- `MatrixBlock<Scalar, 4, 4>::invert` and `invertMatrix(Dune::FieldMatrix<K,4,4>&)` (opm/simulators/linalg/matrixblock.hh:199-206,238-239): the
block is overwritten by the inverse of its copy; `none` stands for the exception. -/
def invert (m : Matrix (Fin 4) (Fin 4) K) : Option (Matrix (Fin 4) (Fin 4) K) :=
  match invertMatrix4 m with
  | .inverted _ inverse => some inverse
  | .singular => none

end Verif.Inverse
