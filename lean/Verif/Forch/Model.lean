import Mathlib.Algebra.Order.Field.Basic
import Mathlib.Algebra.BigOperators.Fin

set_option autoImplicit false
/-
Model of the Forchheimer relation between the gradient of the potential and the filter velocity
(opm/models/common/forchheimerfluxmodule.hh).  Numbers are exact; only values, no derivatives.
-/
namespace Verif.Forch

variable {K : Type} [Field K] [LinearOrder K] {n : ℕ}

abbrev Vec (K : Type) (n : ℕ) := Fin n → K

/-- What the equation of one phase depends on at a face: mobility, density, ratio of mobility and passability, Ergun coefficient,
the diagonal of the permeability tensor and its roots, and the gradient of the potential
(opm/models/common/forchheimerfluxmodule.hh lines 264-304). -/
structure Face (K : Type) (n : ℕ) where
  mobility : K
  density : K
  ratio : K
  ergun : K
  perm : Vec K n
  sqrtPerm : Vec K n
  grad : Vec K n

/-- `absVel`, opm/models/common/forchheimerfluxmodule.hh lines 497-505; `root` is `Toolbox::sqrt`. -/
def absVel (root : K → K) (v : Vec K n) : K :=
  let s := ∑ i, v i * v i
  if s ≤ 0 then 0 else root s

/-- `forchheimerResid_`, opm/models/common/forchheimerfluxmodule.hh lines 465-510. -/
def resid (root : K → K) (f : Face K n) (v : Vec K n) : Vec K n := fun i =>
  v i + f.mobility * f.grad i * f.perm i + f.sqrtPerm i * (f.density * f.ratio * f.ergun * absVel root v) * v i

/-- `coordEps`, opm/models/common/forchheimerfluxmodule.hh line 523. -/
def coordEps (x : K) : K := max (1 / 100000000000) (x * (1 + 1 / 100000000000))

/-- `gradResid`, opm/models/common/forchheimerfluxmodule.hh lines 512-531: row `i` is the difference quotient of the residual for
the coordinate `i` of the velocity. -/
def gradResid (root : K → K) (f : Face K n) (v : Vec K n) (i j : Fin n) : K :=
  (resid root f (Function.update v i (v i + coordEps (v i))) j - resid root f v j) / coordEps (v i)

/-- `one_norm`. -/
def oneNorm (v : Vec K n) : K := ∑ i, |v i|

/-- The loop of `calculateForchheimerFlux_`, opm/models/common/forchheimerfluxmodule.hh lines 434-463, from a velocity and with some
iterations left; `solve` is `FieldMatrix::solve`, which throws (`none`) if it finds the matrix singular; `none` is an exception. -/
def newton (root : K → K) (solve : (Fin n → Fin n → K) → Vec K n → Option (Vec K n)) (f : Face K n) : ℕ → Vec K n → Option (Vec K n)
  | 0, _ => none
  | k + 1, v =>
    match solve (gradResid root f v) (resid root f v) with
    | none => none
    | some d =>
      let v' : Vec K n := fun i => v i - d i
      if 1 / 100000000000 < oneNorm d then newton root solve f k v' else some v'

/-- `calculateForchheimerFlux_`, opm/models/common/forchheimerfluxmodule.hh lines 434-463. -/
def velocity (root : K → K) (solve : (Fin n → Fin n → K) → Vec K n → Option (Vec K n)) (f : Face K n) : Option (Vec K n) :=
  newton root solve f 50 fun _ => 0

/-- The flux over a face with a unit normal, opm/models/common/forchheimerfluxmodule.hh lines 398-401 and 427-430. -/
def volumeFlux (v normal : Vec K n) : K := ∑ i, v i * normal i

/-- What a cell contributes to the equation of one phase. -/
structure Side (K : Type) where
  mobility : K
  density : K
  ratio : K
  ergun : K

/-- The upstream cell is the exterior one if the potential grows from the interior to the exterior
(opm/models/common/darcyfluxmodule.hh lines 299-312). -/
def exteriorIsUpstream (grad normal : Vec K n) : Bool := decide (0 < ∑ i, grad i * normal i)

/-- `calculateGradients_`, opm/models/common/forchheimerfluxmodule.hh lines 252-306: the Ergun coefficient is the mean of both cells, the
rest comes from the upstream one. -/
def innerFace (root : K → K) (a b : Side K) (perm grad normal : Vec K n) : Face K n :=
  let up := if exteriorIsUpstream grad normal then b else a
  ⟨up.mobility, up.density, up.ratio, (a.ergun + b.ergun) / 2, perm, fun i => root (perm i), grad⟩

/-- `calculateBoundaryGradients_`, opm/models/common/forchheimerfluxmodule.hh lines 308-352: the mobility comes from the upstream side
(opm/models/common/darcyfluxmodule.hh lines 420-450), density and ratio from the interior. -/
def boundaryFace (root : K → K) (a : Side K) (outside : Side K) (perm grad normal : Vec K n) : Face K n :=
  let up := if exteriorIsUpstream grad normal then outside else a
  ⟨up.mobility, a.density, a.ratio, a.ergun, perm, fun i => root (perm i), grad⟩

/-- `isDiagonal_`, opm/models/common/forchheimerfluxmodule.hh lines 533-552. -/
def isDiagonal (T : Fin n → Fin n → K) : Bool := decide (∀ i j, i ≠ j → ¬ 1 / 10 ^ 25 < |T i j|)

/-- The diagonal of a permeability tensor is all that is used; builds with assertions (`debug`) abort (`none`) if there is more
(opm/models/common/forchheimerfluxmodule.hh lines 267-270 and 479-481). -/
def tensorFace (debug : Bool) (root : K → K) (T : Fin n → Fin n → K) (s : Side K) (grad : Vec K n) : Option (Face K n) :=
  if debug && !isDiagonal T then none
  else some ⟨s.mobility, s.density, s.ratio, s.ergun, fun i => T i i, fun i => root (T i i), grad⟩

end Verif.Forch
