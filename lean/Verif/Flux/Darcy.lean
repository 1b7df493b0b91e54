import Mathlib.Algebra.BigOperators.Group.Finset.Basic
import Mathlib.Algebra.BigOperators.Ring.Finset
import Mathlib.Algebra.BigOperators.Fin
import Mathlib.Algebra.Order.Field.Basic

set_option autoImplicit false
/-
Model of the Darcy flux module `/repo/opm/models/common/darcyfluxmodule.hh` together with the two-point gradient of
`/repo/opm/models/discretization/common/fvbasegradientcalculator.hh` and the advective fluxes and boundary rates of
the immiscible and of the NCP model.

One phase is modelled at a time (the phases do not influence each other in this code).  Scalars are elements of an
ordered field; which of the values carry derivatives is not modelled; neither are the exceptions for values which are
not finite.
-/
namespace Verif.Flux

variable {K : Type} [Field K] [LinearOrder K] {dim : ℕ}

/-- A vector of the world, `DimVector`. -/
abbrev Vec (K : Type) (dim : ℕ) := Fin dim → K

/-- `operator*` and `two_norm2` of `Dune::FieldVector`. -/
def dot (a b : Vec K dim) : K := ∑ k, a k * b k

/-- What the flux over a face needs of a finite volume: position (`elemCtx.pos`), gravity there, and pressure, density
and mobility of the phase. -/
structure Side (K : Type) (dim : ℕ) where
  pos : Vec K dim
  gravity : Vec K dim
  pressure : K
  density : K
  mobility : K

/-- `calculateGradient`, opm/models/discretization/common/fvbasegradientcalculator.hh:201-246 (and 279-318 for boundary faces). -/
def gradient (xi xj : Vec K dim) (qi qj : K) : Vec K dim :=
  fun k => (qj - qi) * ((xj k - xi k) / dot (fun k => xj k - xi k) (fun k => xj k - xi k))

/-- `harmonicMean` of opm-common: zero for values of different sign. -/
def harmonicMean (x y : K) : K := if x * y ≤ 0 then 0 else 2 * x * y / (x + y)

/-- `intersectionIntrinsicPermeability`, opm/models/common/multiphasebaseproblem.hh:108-125. -/
def facePermeability (k1 k2 : Fin dim → Vec K dim) : Fin dim → Vec K dim :=
  fun i j => harmonicMean (k1 i j) (k2 i j)

/-- `calculateGradients_`, opm/models/common/darcyfluxmodule.hh:183-286 (up to the permeability): the potential gradient at the
integration point of a face between the interior volume `a` and the exterior volume `b`. -/
def potentialGrad (enableGravity : Bool) (facePos : Vec K dim) (a b : Side K dim) : Vec K dim :=
  let raw := gradient a.pos b.pos a.pressure b.pressure
  if enableGravity then
    let distVecIn : Vec K dim := fun k => a.pos k - facePos k
    let distVecEx : Vec K dim := fun k => b.pos k - facePos k
    let distVecTotal : Vec K dim := fun k => b.pos k - a.pos k
    let pStatIn := - a.density * dot a.gravity distVecIn
    let pStatEx := - b.density * dot b.gravity distVecEx
    fun k => raw k + distVecTotal k * ((pStatEx - pStatIn) / dot distVecTotal distVecTotal)
  else raw

/-- Is the exterior volume the upstream one?  opm/models/common/darcyfluxmodule.hh:300-312 (and 422-433 for boundary faces). -/
def exteriorIsUpstream (grad normal : Vec K dim) : Bool := decide (0 < dot grad normal)

/-- `K_.mv(potentialGrad_, filterVelocity_)`. -/
def mulVec (perm : Fin dim → Vec K dim) (v : Vec K dim) : Vec K dim := fun i => dot (perm i) v

/-- `calculateFilterVelocity_`, opm/models/common/darcyfluxmodule.hh:509-526, and the volume flux, 466-472, 498-500. -/
def fluxOf (perm : Fin dim → Vec K dim) (grad normal : Vec K dim) (mobility : K) : K :=
  dot (fun i => mulVec perm grad i * (- mobility)) normal

/-- The mobility is taken from the upstream volume, opm/models/common/darcyfluxmodule.hh:314-320. -/
def volumeFlux (enableGravity : Bool) (facePos normal : Vec K dim) (perm : Fin dim → Vec K dim) (a b : Side K dim) : K :=
  let grad := potentialGrad enableGravity facePos a b
  fluxOf perm grad normal (if exteriorIsUpstream grad normal then b.mobility else a.mobility)

/-- The flux of a conserved quantity (the mass of a phase: opm/models/immiscible/immisciblelocalresidual.hh:128-153; the amount of a component:
opm/models/ncp/ncplocalresidual.hh:122-165), given how much of it there is in a unit volume of the phase in both volumes (`density`, or
`molarDensity * moleFraction`). -/
def advectiveFlux (enableGravity : Bool) (facePos normal : Vec K dim) (perm : Fin dim → Vec K dim) (a b : Side K dim)
    (contentA contentB : K) : K :=
  let grad := potentialGrad enableGravity facePos a b
  volumeFlux enableGravity facePos normal perm a b * (if exteriorIsUpstream grad normal then contentB else contentA)

/-! ### Boundary faces -/

/-- What is prescribed at the boundary: the fluid state and the mobility the material law of the interior volume gives it
(opm/models/common/darcyfluxmodule.hh:412-415, 436-443). -/
structure Outside (K : Type) where
  pressure : K
  density : K
  mobility : K

/-- `calculateBoundaryGradients_`, opm/models/common/darcyfluxmodule.hh:331-407: the potential gradient at a boundary face.  `center` is the
position the gradient of the pressure is computed with (`subControlVolume.center()`, opm/models/discretization/common/fvbasegradientcalculator.hh:299);
the gravity correction uses `a.pos` (`subControlVolume.globalPos()`, opm/models/discretization/common/fvbaseelementcontext.hh:352-353).  The two are the
same for volumes which are cells, but not for those around vertices. -/
def boundaryPotentialGrad (enableGravity : Bool) (facePos center : Vec K dim) (a : Side K dim) (o : Outside K) : Vec K dim :=
  let raw := gradient center facePos a.pressure o.pressure
  if enableGravity then
    let distVecIn : Vec K dim := fun k => a.pos k - facePos k
    let pStatIn := - dot a.gravity distVecIn * a.density
    fun k => raw k + distVecIn k * (pStatIn / dot distVecIn distVecIn)
  else raw

/-- The volume flux over a boundary face, opm/models/common/darcyfluxmodule.hh:409-450 and 486-507. -/
def boundaryVolumeFlux (enableGravity : Bool) (facePos center normal : Vec K dim) (perm : Fin dim → Vec K dim)
    (a : Side K dim) (o : Outside K) : K :=
  let grad := boundaryPotentialGrad enableGravity facePos center a o
  fluxOf perm grad normal (if exteriorIsUpstream grad normal then o.mobility else a.mobility)

/-- What a free-flow boundary adds to the equation of a conserved quantity
(`ImmiscibleBoundaryRateVector::setFreeFlow`, opm/models/immiscible/immiscibleboundaryratevector.hh:98-157;
`NcpBoundaryRateVector::setFreeFlow`, opm/models/ncp/ncpboundaryratevector.hh:86-158;
`RichardsBoundaryRateVector::setFreeFlow`, opm/models/richards/richardsboundaryratevector.hh:81-118, with the density;
opm/models/pvs/pvsboundaryratevector.hh:86-158; opm/models/flash/flashboundaryratevector.hh:83-156): the content is taken from outside if the pressure is
larger there. -/
def freeFlow (enableGravity : Bool) (facePos center normal : Vec K dim) (perm : Fin dim → Vec K dim)
    (a : Side K dim) (o : Outside K) (contentIn contentOut : K) : K :=
  boundaryVolumeFlux enableGravity facePos center normal perm a o *
    (if a.pressure < o.pressure then contentOut else contentIn)

/-- `setInFlow`, opm/models/immiscible/immiscibleboundaryratevector.hh:171-183, opm/models/ncp/ncpboundaryratevector.hh:164-175,
opm/models/richards/richardsboundaryratevector.hh:123-136,
opm/models/pvs/pvsboundaryratevector.hh:164-176, opm/models/flash/flashboundaryratevector.hh:161-174; for every equation. -/
def inFlow {ι : Type} (free : ι → K) : ι → K := fun eq => min 0 (free eq)

/-- `setOutFlow`, opm/models/immiscible/immiscibleboundaryratevector.hh:195-207, opm/models/ncp/ncpboundaryratevector.hh:181-192,
opm/models/richards/richardsboundaryratevector.hh:141-154,
opm/models/pvs/pvsboundaryratevector.hh:182-194, opm/models/flash/flashboundaryratevector.hh:179-192; for every equation. -/
def outFlow {ι : Type} (free : ι → K) : ι → K := fun eq => max 0 (free eq)

end Verif.Flux
