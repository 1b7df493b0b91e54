import Verif.GlobalIdx.Model
import Mathlib.Algebra.BigOperators.Group.Finset.Defs

/-
The scalar product of vectors which are spread over processes: opm/simulators/linalg/overlappingscalarproduct.hh.
-/

set_option autoImplicit false

namespace Verif.ScalarProduct

open Verif.GlobalIdx

variable {P : ℕ} {B K : Type}

/-- `iAmMasterOf` of a local index (opm/simulators/linalg/foreignoverlapfrombcrsmatrix.hh:182-183, opm/simulators/linalg/domesticoverlapfrombcrsmatrix.hh:234-239) -/
def iAmMasterOf (overlapSize : ℕ) (d : Part P) (myRank : Fin P) (localIdx : ℕ) : Bool :=
  d.masterRank overlapSize myRank localIdx = myRank

/-- The loop of `dot` over the local indices (opm/simulators/linalg/overlappingscalarproduct.hh:61-66); `mul` is the product of two blocks. -/
def localDot [AddCommMonoid K] (mul : B → B → K) (overlapSize : ℕ) (d : Part P) (myRank : Fin P) (x y : ℕ → B) : K :=
  (List.range d.numLocal).foldl (fun sum i => if iAmMasterOf overlapSize d myRank i then sum + mul (x i) (y i) else sum) 0

/-- `dot` (opm/simulators/linalg/overlappingscalarproduct.hh:58-70): what each process gets.  `comm_.sum` gives each process the sum of what all
processes pass to it. -/
def dot [AddCommMonoid K] (mul : B → B → K) (overlapSize : ℕ) (d : Fin P → Part P) (x y : Fin P → ℕ → B) (_myRank : Fin P) : K :=
  ∑ q, localDot mul overlapSize (d q) q (x q) (y q)

end Verif.ScalarProduct
